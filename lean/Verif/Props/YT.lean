import Verif.Model.YT
import Mathlib.Tactic.Ring
import Mathlib.Tactic.LinearCombination
import Mathlib.Tactic.NormNum

/-!
# C35: boundary value algebra
-/
set_option linter.unusedSectionVars false
namespace Verif.YT
variable {K : Type} [CommRing K]

@[ext] theorem Y.ext' {u v : Y K} (h1 : u.y = v.y) (h2 : u.dy = v.dy) (h3 : u.yE = v.yE)
    (h4 : u.dyE = v.dyE) : u = v := by
  cases u; cases v; simp_all

/-- What `T` needs for `operator/` to be its inverse: `det t = 1`, and the derivative of the
determinant is zero (which follows from `det t = 1` for all `E`, see `ddet_of_det_one`). -/
structure T.Unimodular (A : T K) : Prop where
  det : A.t.det = 1
  ddet : A.t.a * A.dt.d + A.t.d * A.dt.a - (A.t.b * A.dt.c + A.t.c * A.dt.b) = 0

/-- **C35**: `T / (T * y) = y`, E-derivatives included. -/
theorem C35_div_mul (A : T K) (h : A.Unimodular) (y : Y K) : A.div (A.mul y) = y := by
  obtain ⟨h1, h2⟩ := h
  unfold M2.det at h1
  ext <;> simp only [T.div, T.mul, M2.mulVec, M2.adj]
  · linear_combination y.y * h1
  · linear_combination y.dy * h1
  · linear_combination y.yE * h1 + y.y * h2
  · linear_combination y.dyE * h1 + y.dy * h2

/-- **C35**: `T * (T / y) = y`, E-derivatives included. -/
theorem C35_mul_div (A : T K) (h : A.Unimodular) (y : Y K) : A.mul (A.div y) = y := by
  obtain ⟨h1, h2⟩ := h
  unfold M2.det at h1
  ext <;> simp only [T.div, T.mul, M2.mulVec, M2.adj]
  · linear_combination y.y * h1
  · linear_combination y.dy * h1
  · linear_combination y.yE * h1 + y.y * h2
  · linear_combination y.dyE * h1 + y.dy * h2

/-- **C35**: without the determinant condition the round trip multiplies by the determinant, so the
condition is necessary on the values: `T / (T * y) = y` for all `y` forces `det t = 1`. -/
theorem C35_det_necessary (A : T K) (h : ∀ y : Y K, A.div (A.mul y) = y) : A.Unimodular := by
  have h1 := congrArg Y.y (h ⟨1, 0, 0, 0⟩)
  have h2 := congrArg Y.yE (h ⟨1, 0, 0, 0⟩)
  simp only [T.div, T.mul, M2.mulVec, M2.adj] at h1 h2
  constructor
  · unfold M2.det; linear_combination h1
  · linear_combination h2

/-- **C35**: reversing twice is the identity. -/
theorem C35_reverse_involutive (y : Y K) : y.reverse.reverse = y := by
  ext <;> simp [Y.reverse]

/-- **C35**: scaling commutes with propagation, with its inverse, and with reversal. -/
theorem C35_smul_comm (A : T K) (y : Y K) (f : K) :
    A.mul (y.smul f) = (A.mul y).smul f ∧ A.div (y.smul f) = (A.div y).smul f ∧
      (y.smul f).reverse = y.reverse.smul f := by
  refine ⟨?_, ?_, ?_⟩ <;> ext <;> simp only [T.div, T.mul, M2.mulVec, M2.adj, Y.smul, Y.reverse] <;>
    ring

/-- Additivity of the three operations. -/
theorem mul_add' (A : T K) (u v : Y K) : A.mul (u.add v) = (A.mul u).add (A.mul v) := by
  ext <;> simp only [T.mul, M2.mulVec, Y.add] <;> ring
theorem div_add' (A : T K) (u v : Y K) : A.div (u.add v) = (A.div u).add (A.div v) := by
  ext <;> simp only [T.div, M2.mulVec, M2.adj, Y.add] <;> ring
theorem reverse_add' (u v : Y K) : (u.add v).reverse = u.reverse.add v.reverse := by
  ext <;> simp only [Y.reverse, Y.add] <;> ring

/-- The Wronskian `u v' - u' v`. -/
def wronskian (u v : Y K) : K := u.y * v.dy - u.dy * v.y

theorem wronskian_mul (A : T K) (u v : Y K) :
    wronskian (A.mul u) (A.mul v) = A.t.det * wronskian u v := by
  simp only [wronskian, T.mul, M2.mulVec, M2.det]; ring
theorem wronskian_div (A : T K) (u v : Y K) :
    wronskian (A.div u) (A.div v) = A.t.det * wronskian u v := by
  simp only [wronskian, T.div, M2.mulVec, M2.adj, M2.det]; ring
theorem wronskian_reverse (u v : Y K) :
    wronskian u.reverse v.reverse = - wronskian u v := by
  simp only [wronskian, Y.reverse]; ring

/-- Non-vacuity: a matrix with non-trivial derivative part that meets the hypotheses. -/
example : (⟨⟨2, 3, 1, 2⟩, ⟨1, 2, 3, 9/2⟩⟩ : T ℚ).Unimodular := by
  constructor <;> norm_num [M2.det]

/-- Why the two boundary conditions `Y::Dirichlet()`, `Y::Neumann()` are enough: they form a basis of
the initial values (with zero E-derivative). -/
theorem dirichlet_neumann_basis (y : Y K) (h1 : y.yE = 0) (h2 : y.dyE = 0) :
    y = (Y.neumann.smul y.y).add (Y.dirichlet.smul y.dy) := by
  ext <;> simp [Y.neumann, Y.dirichlet, Y.smul, Y.add, h1, h2]

end Verif.YT
