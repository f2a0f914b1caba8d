import Verif.Model.Solver

/-!
# Model of the scalar type `Scalar` in finite precision
`matslise/matslise.h:121-122` (`template<typename Scalar_ = double> class Matslise`)

The numerical code is a template over `Scalar`, instantiated with `double`, `long double`, `__float128` or a multiprecision type. Each of these
evaluates every operation exactly and then rounds the result. `Fl fl` is such a type: a number together with the rounding function `fl`. The models of
`calculateT`, of the formula tables, of `propagate` and of `matchingError` are polymorphic in the scalar type and contain the operations of the code one by one;
at `Fl fl` they are the code with every single operation rounded.

Simplifications: no overflow, no NaN (`fl` is a function to the reals); comparisons are exact, as in IEEE 754; the products in the formula tables are
associated as in `Model/Formulas` (the code shares some of the products `v_i v_j`), and `(vs[0] - E) * h * h` as in `Model/CalcT`.
-/
namespace Verif.Fp
open Verif.Mesh Verif.YT Verif.CalcT Verif.Propag

/-- Rounding with unit roundoff `u` and smallest normal number `mu`: results are wrong by at most `u` relative to their size, or by `u * mu` when they are smaller
than `mu`; rounding is monotone and symmetric. Round-to-nearest of IEEE 754 has these properties (without overflow): for `double`, `u = 2^-53` and `mu = 2^-1022`. -/
structure Rounding (u mu : ℝ) (fl : ℝ → ℝ) : Prop where
  err : ∀ x, |fl x - x| ≤ u * max |x| mu
  mono : Monotone fl
  neg : ∀ x, fl (-x) = -fl x

/-- A scalar of the type with rounding `fl`. -/
@[ext] structure Fl (fl : ℝ → ℝ) where
  val : ℝ

namespace Fl
variable {fl : ℝ → ℝ}

/-- rounded sum -/
instance : Add (Fl fl) := ⟨fun x y => ⟨fl (x.val + y.val)⟩⟩
/-- rounded difference -/
instance : Sub (Fl fl) := ⟨fun x y => ⟨fl (x.val - y.val)⟩⟩
/-- rounded product -/
instance : Mul (Fl fl) := ⟨fun x y => ⟨fl (x.val * y.val)⟩⟩
/-- rounded quotient -/
noncomputable instance : Div (Fl fl) := ⟨fun x y => ⟨fl (x.val / y.val)⟩⟩
/-- the change of sign is exact -/
instance : Neg (Fl fl) := ⟨fun x => ⟨-x.val⟩⟩
instance : Zero (Fl fl) := ⟨⟨0⟩⟩
instance : One (Fl fl) := ⟨⟨1⟩⟩
/-- exact comparisons; a literal of the source is rounded -/
noncomputable instance : CCmp (Fl fl) where
  lt x y := decide (x.val < y.val)
  le x y := decide (x.val ≤ y.val)
  eq x y := decide (x.val = y.val)
  lit q := ⟨fl (q : ℝ)⟩

@[simp] theorem add_val (x y : Fl fl) : (x + y).val = fl (x.val + y.val) := rfl
@[simp] theorem sub_val (x y : Fl fl) : (x - y).val = fl (x.val - y.val) := rfl
@[simp] theorem mul_val (x y : Fl fl) : (x * y).val = fl (x.val * y.val) := rfl
@[simp] theorem div_val (x y : Fl fl) : (x / y).val = fl (x.val / y.val) := rfl
@[simp] theorem neg_val (x : Fl fl) : (-x).val = -x.val := rfl
@[simp] theorem zero_val : (0 : Fl fl).val = 0 := rfl
@[simp] theorem one_val : (1 : Fl fl).val = 1 := rfl
@[simp] theorem lt_def (x y : Fl fl) : CCmp.lt x y = decide (x.val < y.val) := rfl
@[simp] theorem le_def (x y : Fl fl) : CCmp.le x y = decide (x.val ≤ y.val) := rfl
@[simp] theorem eq_def (x y : Fl fl) : CCmp.eq x y = decide (x.val = y.val) := rfl
@[simp] theorem lit_val (q : ℚ) : (CCmp.lit q : Fl fl).val = fl (q : ℝ) := rfl

/-- The comparisons obey the laws of IEEE 754. -/
instance : IeeeOrd (Fl fl) where
  le_left := by simp
  le_right := by simp
  trans := by simp only [le_def, decide_eq_true_eq]; exact fun x y z => le_trans
  total := by simp only [le_def, decide_eq_true_eq]; exact fun x y _ _ => le_total _ _
  lt_iff := by simp
  eq_iff x y := by simp only [eq_def, le_def, decide_eq_true_eq]; exact le_antisymm_iff

end Fl

section gen
variable {K : Type} [Add K] [Sub K] [Mul K] [Div K] [Neg K] [Zero K] [One K] [CCmp K]

/-- A constructed sector over any scalar type — sector.cpp:22-53, 55-79: `eps` is `EPS`, `eta` is `calculateEta`, `v` the member `vs`; `th` and `pr` are the angle
functions `theta0` and `prufer` (sector.cpp:106-172), arbitrary here. At `ℝ` this is `Solver.sectorOf` (`sectorGen_real`). -/
def sectorGen (eps : K) (eta : Nat → K → Nat → K) (th : K → K → K → Y K → K) (pr : K → K → K → K → Y K → Y K → K) (v : Nat → K) (v0Match : K)
    (s : Sec K) : PSec K where
  toSec := s
  h := s.max - s.min
  tr E delta useH := calculateTWith eps eta (mkSec (s.max - s.min) v) E delta useH
  theta0 := th v0Match (v 0)
  prufer := pr v0Match (v 0)

/-- The constructor of `Matslise` over any scalar type — matslise.h:148-162 (see `Solver.constructOf`). -/
def constructGen (eps : K) (eta : Nat → K → Nat → K) (th : K → K → K → Y K → K) (pr : K → K → K → K → Y K → Y K → K) (vs : Sec K → Nat → K)
    (dmin dmax : K) (r : BuildResult K) : Prob K :=
  let v0Match := match r.sectors[r.matchIndex]? with
    | some s => vs s 0
    | none => 0
  { secs := r.sectors.map (fun s => sectorGen eps eta th pr (vs s) v0Match s), dmin := dmin, dmax := dmax, matchIndex := r.matchIndex }

/-- The member `vs` after the constructor `Sector(s, min, max, direction)` over any scalar type — sector.cpp:26-30 (see `Solver.sectorVs`). -/
def sectorVsGen (V : K → K) (s : Sec K) (k : Nat) : K :=
  if k < Solver.matsliseN then
    let c := Legendre.getCoefficients Solver.matsliseN V s.min s.max k
    if s.dir = .backward then (if k % 2 = 1 then c * -1 else c) else c
  else 0

end gen

theorem sectorVsGen_real (V : ℝ → ℝ) (s : Sec ℝ) : sectorVsGen V s = Solver.sectorVs V s := rfl

/-- In exact arithmetic this is the model used so far. -/
theorem sectorGen_real (eps : ℝ) (eta : Nat → ℝ → Nat → ℝ) (v : Nat → ℝ) (v0M : ℝ) (s : Sec ℝ) :
    sectorGen eps eta Prufer.theta0 Prufer.pruferHelper v v0M s = Solver.sectorOf eps eta v v0M s := rfl

theorem constructGen_real (eps : ℝ) (eta : Nat → ℝ → Nat → ℝ) (vs : Sec ℝ → Nat → ℝ) (dmin dmax : ℝ) (r : BuildResult ℝ) :
    constructGen eps eta Prufer.theta0 Prufer.pruferHelper vs dmin dmax r = Solver.constructOf eps eta vs dmin dmax r := by
  unfold constructGen Solver.constructOf
  cases r.sectors[r.matchIndex]? <;> rfl

end Verif.Fp
