import Verif.Lemmas.FormulaCheck
import Verif.Lemmas.Eta
import Mathlib.Analysis.ODE.Gronwall
import Mathlib.Analysis.SpecialFunctions.Exp

/-!
# From table identities to residuals of the differential equation

For tables `a`, `c` of polynomials put `U = Σ a_i η_i(Z₀δ²)` and `W = κ Z₀ δ η_1(Z₀δ²) + Σ c_i η_i(Z₀δ²)`.
The identities checked in `FormulaCheck` say that `U' - W` and `W' - (Z₀ + ΔV) U` are small.
-/
namespace Verif.PL
open Verif.Formulas Verif.Legendre Verif.Eta
open scoped BigOperators

/-! ### Sums over the recurrence of the η functions -/

/-- `2i - 1` for `i ≥ 1`, `0` for `i = 0` -/
def gi (i : ℕ) : ℝ := if i = 0 then 0 else ((2 * i - 1 : ℕ) : ℝ)

theorem shift_sum (f e : ℕ → ℝ) (Z : ℝ) (he : ∀ m, e m = (2 * m + 1) * e (m + 1) + Z * e (m + 2)) (n : ℕ) :
    ∑ i ∈ Finset.range (n + 1), f i * (Z * e (i + 1)) + f (n + 1) * e n =
      f 0 * (Z * e 1) + ∑ i ∈ Finset.range (n + 1), (f (i + 1) - gi i * f i) * e i := by
  induction n with
  | zero => simp [gi]
  | succ n ih =>
    rw [Finset.sum_range_succ, Finset.sum_range_succ (fun i => (f (i + 1) - gi i * f i) * e i)]
    have hg : gi (n + 1) = 2 * n + 1 := by
      unfold gi; rw [if_neg (by omega), show 2 * (n + 1) - 1 = 2 * n + 1 by omega]; push_cast; ring
    rw [hg]
    linear_combination ih + (-f (n + 1)) * he n

theorem shift_sum_zero (f e : ℕ → ℝ) (Z : ℝ) (he : ∀ m, e m = (2 * m + 1) * e (m + 1) + Z * e (m + 2)) (n : ℕ)
    (h0 : f (n + 1) = 0) :
    ∑ i ∈ Finset.range (n + 1), f i * (Z * e (i + 1)) =
      f 0 * (Z * e 1) + ∑ i ∈ Finset.range (n + 1), (f (i + 1) - gi i * f i) * e i := by
  rw [← shift_sum f e Z he n, h0]; ring

theorem shift_sum2 (f e : ℕ → ℝ) (Z : ℝ) (he : ∀ m, e m = (2 * m + 1) * e (m + 1) + Z * e (m + 2)) (n : ℕ)
    (h0 : f (n + 1) = 0) (h1 : f (n + 2) = 0) :
    ∑ i ∈ Finset.range (n + 1), f i * (Z * e i) =
      f 0 * (Z * e 0) + f 1 * (Z * e 1) +
        ∑ i ∈ Finset.range (n + 1), (f (i + 2) - gi i * f (i + 1)) * e i := by
  have h2 := shift_sum_zero (fun i => f (i + 1)) e Z he n h1
  have h3 : ∑ i ∈ Finset.range (n + 1), f i * (Z * e i) =
      f 0 * (Z * e 0) + ∑ i ∈ Finset.range (n + 1), f (i + 1) * (Z * e (i + 1)) := by
    rw [Finset.sum_range_succ (fun i => f (i + 1) * (Z * e (i + 1))), Finset.sum_range_succ', h0]; ring
  rw [h3, h2]; ring

/-! ### The potential -/

/-- `ΔV(δ) = Σ_{k=1}^{nV} v_k h^k P_k(δ/h)` with the table of polynomials. -/
noncomputable def dV (nV : ℕ) (v : ℕ → ℝ) (h δ : ℝ) : ℝ :=
  ∑ k ∈ Finset.range nV, ∑ j ∈ Finset.range (k + 2), (poly (k + 1) j : ℝ) * v (k + 1) * h ^ (k + 1) * (δ / h) ^ j

theorem evalAll_map_range (v : ℕ → ℝ) (h s : ℝ) (f : ℕ → PL) (n : ℕ) :
    evalAll v h s ((List.range n).map f) = ∑ j ∈ Finset.range n, eval v h s (f j) := by
  induction n with
  | zero => simp [evalAll]
  | succ n ih => rw [List.range_succ, List.map_append, evalAll_append, ih, Finset.sum_range_succ]; simp [evalAll]

theorem evalAll_flatMap_range (v : ℕ → ℝ) (h s : ℝ) (f : ℕ → List PL) (n : ℕ) :
    evalAll v h s ((List.range n).flatMap f) = ∑ j ∈ Finset.range n, evalAll v h s (f j) := by
  induction n with
  | zero => simp [evalAll]
  | succ n ih =>
    rw [List.range_succ, List.flatMap_append, evalAll_append, ih, Finset.sum_range_succ]; simp

theorem evalAll_dVmul (v : ℕ → ℝ) (h s : ℝ) (nV : ℕ) (f : ℕ → PL → PL) (N : ℕ) (l : PL) :
    evalAll v h s (dVmul nV f N l) = ∑ k ∈ Finset.range nV, ∑ j ∈ Finset.range (k + 2),
      (poly (k + 1) j : ℝ) * v (k + 1) * h ^ (k + 1) * s ^ j * eval v h s (f (N - (k + 1)) l) := by
  unfold dVmul
  rw [evalAll_flatMap_range]
  refine Finset.sum_congr rfl (fun k _ => ?_)
  rw [evalAll_map_range]
  exact Finset.sum_congr rfl (fun j _ => eval_mulV v h s _ _ _ _)

theorem evalAll_dVmul_low_high (v : ℕ → ℝ) (h δ : ℝ) (nV N : ℕ) (l : PL) :
    evalAll v h (δ / h) (dVmul nV low N l) + evalAll v h (δ / h) (dVmul nV high N l) =
      dV nV v h δ * eval v h (δ / h) l := by
  rw [evalAll_dVmul, evalAll_dVmul, dV, Finset.sum_mul, ← Finset.sum_add_distrib]
  refine Finset.sum_congr rfl (fun k _ => ?_)
  rw [Finset.sum_mul, ← Finset.sum_add_distrib]
  refine Finset.sum_congr rfl (fun j _ => ?_)
  rw [← mul_add, eval_low_high]

theorem continuous_dV (nV : ℕ) (v : ℕ → ℝ) (h : ℝ) : Continuous (dV nV v h) := by
  unfold dV; fun_prop

/-- a bound for `ΔV` -/
noncomputable def dVbnd (nV : ℕ) (M : ℝ) : ℝ :=
  ∑ k ∈ Finset.range nV, ∑ j ∈ Finset.range (k + 2), |(poly (k + 1) j : ℝ)| * M

theorem dVbnd_nonneg (nV : ℕ) {M : ℝ} (hM : 0 ≤ M) : 0 ≤ dVbnd nV M :=
  Finset.sum_nonneg (fun _ _ => Finset.sum_nonneg (fun _ _ => mul_nonneg (abs_nonneg _) hM))

theorem abs_dV_le (nV : ℕ) {v : ℕ → ℝ} {M : ℝ} (hM : 1 ≤ M) (hv : ∀ k, 1 ≤ k → |v k| ≤ M) {h δ : ℝ} (h0 : 0 < h)
    (h1 : h ≤ 1) (d0 : 0 ≤ δ) (d1 : δ ≤ h) : |dV nV v h δ| ≤ dVbnd nV M := by
  have s0 : 0 ≤ δ / h := by positivity
  have s1 : δ / h ≤ 1 := (div_le_one h0).mpr d1
  unfold dV dVbnd
  refine (Finset.abs_sum_le_sum_abs _ _).trans (Finset.sum_le_sum (fun k _ => ?_))
  refine (Finset.abs_sum_le_sum_abs _ _).trans (Finset.sum_le_sum (fun j _ => ?_))
  rw [abs_mul, abs_mul, abs_mul, abs_of_nonneg (pow_nonneg s0 _), abs_of_nonneg (pow_nonneg h0.le _), mul_assoc, mul_assoc]
  refine mul_le_mul_of_nonneg_left ?_ (abs_nonneg _)
  have e1 : h ^ (k + 1) * (δ / h) ^ j ≤ 1 := mul_le_one₀ (pow_le_one₀ h0.le h1) (pow_nonneg s0 _) (pow_le_one₀ s0 s1)
  calc |v (k + 1)| * (h ^ (k + 1) * (δ / h) ^ j) ≤ M * 1 :=
        mul_le_mul (hv _ (by omega)) e1 (by positivity) (by linarith)
    _ = M := mul_one M

/-! ### The η functions along a step -/

theorem abs_eta_le (m : ℕ) (Z : ℝ) : |eta m Z| ≤ Real.exp |Z| := by
  have h1 := hasSum_eta m Z
  have h2 : HasSum (fun q : ℕ => |Z| ^ q / q.factorial) (Real.exp |Z|) := by
    have := NormedSpace.expSeries_div_hasSum_exp (𝔸 := ℝ) |Z|
    rwa [← Real.exp_eq_exp_ℝ] at this
  rw [← h1.tsum_eq, ← Real.norm_eq_abs]
  refine tsum_of_norm_bounded h2 (fun q => ?_)
  rw [Real.norm_eq_abs, abs_mul, abs_pow, abs_of_pos (coef_pos m q)]
  have := coef_le m q
  rw [div_eq_mul_one_div, mul_comm]
  exact mul_le_mul_of_nonneg_left this (by positivity)

theorem hasDerivAt_etaZ (i : ℕ) (Z0 δ : ℝ) :
    HasDerivAt (fun δ => eta i (Z0 * δ ^ 2)) (Z0 * δ * eta (i + 1) (Z0 * δ ^ 2)) δ := by
  have h1 : HasDerivAt (fun δ : ℝ => Z0 * δ ^ 2) (Z0 * (2 * δ)) δ :=
    ((hasDerivAt_id δ).fun_pow 2 |>.const_mul Z0).congr_deriv (by simp)
  have h2 := (hasDerivAt_eta i (Z0 * δ ^ 2)).comp δ h1
  exact h2.congr_deriv (by ring)

theorem continuous_etaZ (i : ℕ) (Z0 : ℝ) : Continuous (fun δ => eta i (Z0 * δ ^ 2)) :=
  continuous_iff_continuousAt.mpr (fun δ => (hasDerivAt_etaZ i Z0 δ).continuousAt)

theorem continuous_eval (v : ℕ → ℝ) (h : ℝ) (l : PL) : Continuous (fun δ => eval v h (δ / h) l) :=
  continuous_iff_continuousAt.mpr (fun δ => (hasDerivAt_eval v h l δ).continuousAt)

/-! ### Certificates -/

/-- What the kernel checks about a pair of tables: `n` rows, `nV` potential coefficients, relations up to
order `N`. -/
structure Cert (nV N n : ℕ) (κ : ℤ) (a c : ℕ → PL) : Prop where
  n_pos : 1 ≤ n
  a_end : a n = [] ∧ a (n + 1) = []
  c_end : c n = []
  a_zero : ∀ v h s, eval v h s (a 0) = D * κ
  r1 : ∀ i < n, cancels N (rel1 a c i) = true
  r10 : ∀ v h s, evalAll v h s (rel1 a c 0) = 0
  r2 : ∀ i < n, cancels N (rel2 a c i ++ dVmul nV low N (negDD a i)) = true
  g1 : ∀ i < n, ∀ l ∈ rel1 a c i, Good 1 l
  g2 : ∀ i < n, ∀ l ∈ rel2 a c i, Good 2 l
  g3 : ∀ i < n, Good 2 (negDD a i)

section
variable {nV N n : ℕ} {κ : ℤ} {a c : ℕ → PL}

/-- `U` (times `D`) -/
noncomputable def Uf (n : ℕ) (a : ℕ → PL) (v : ℕ → ℝ) (h Z0 δ : ℝ) : ℝ :=
  ∑ i ∈ Finset.range n, eval v h (δ / h) (a i) * eta i (Z0 * δ ^ 2)
/-- `W` (times `D`) -/
noncomputable def Wf (n : ℕ) (κ : ℤ) (c : ℕ → PL) (v : ℕ → ℝ) (h Z0 δ : ℝ) : ℝ :=
  D * κ * (Z0 * δ * eta 1 (Z0 * δ ^ 2)) + Uf n c v h Z0 δ
/-- derivative of `U` -/
noncomputable def Ud (n : ℕ) (a : ℕ → PL) (v : ℕ → ℝ) (h Z0 δ : ℝ) : ℝ :=
  ∑ i ∈ Finset.range n, (evalD v h δ (a i) * eta i (Z0 * δ ^ 2) +
    eval v h (δ / h) (a i) * (Z0 * δ * eta (i + 1) (Z0 * δ ^ 2)))
/-- derivative of `W` -/
noncomputable def Wd (n : ℕ) (κ : ℤ) (c : ℕ → PL) (v : ℕ → ℝ) (h Z0 δ : ℝ) : ℝ :=
  D * κ * (Z0 * eta 1 (Z0 * δ ^ 2) + Z0 * δ * (Z0 * δ * eta 2 (Z0 * δ ^ 2))) + Ud n c v h Z0 δ

theorem hasDerivAt_Uf (v : ℕ → ℝ) (h Z0 δ : ℝ) : HasDerivAt (Uf n a v h Z0) (Ud n a v h Z0 δ) δ := by
  unfold Uf Ud
  exact HasDerivAt.fun_sum (fun i _ => (hasDerivAt_eval v h (a i) δ).mul (hasDerivAt_etaZ i Z0 δ))

theorem hasDerivAt_Wf (v : ℕ → ℝ) (h Z0 δ : ℝ) : HasDerivAt (Wf n κ c v h Z0) (Wd n κ c v h Z0 δ) δ := by
  unfold Wf Wd
  have h1 : HasDerivAt (fun δ : ℝ => Z0 * δ) Z0 δ := ((hasDerivAt_id δ).const_mul Z0).congr_deriv (by simp)
  exact ((h1.mul (hasDerivAt_etaZ 1 Z0 δ)).const_mul _).add (hasDerivAt_Uf v h Z0 δ)

theorem continuous_Uf (v : ℕ → ℝ) (h Z0 : ℝ) : Continuous (Uf n a v h Z0) :=
  continuous_iff_continuousAt.mpr (fun δ => (hasDerivAt_Uf v h Z0 δ).continuousAt)
theorem continuous_Wf (v : ℕ → ℝ) (h Z0 : ℝ) : Continuous (Wf n κ c v h Z0) :=
  continuous_iff_continuousAt.mpr (fun δ => (hasDerivAt_Wf v h Z0 δ).continuousAt)

theorem continuous_Ud (v : ℕ → ℝ) (h Z0 : ℝ) : Continuous (Ud n a v h Z0) := by
  unfold Ud
  refine continuous_finsetSum _ (fun i _ => ?_)
  exact ((continuous_evalD v h (a i)).mul (continuous_etaZ i Z0)).add
    ((continuous_eval v h (a i)).mul ((continuous_const.mul continuous_id).mul (continuous_etaZ (i + 1) Z0)))

theorem continuous_Wd (v : ℕ → ℝ) (h Z0 : ℝ) : Continuous (Wd n κ c v h Z0) := by
  unfold Wd
  refine Continuous.add ?_ (continuous_Ud v h Z0)
  exact continuous_const.mul ((continuous_const.mul (continuous_etaZ 1 Z0)).add
    ((continuous_const.mul continuous_id).mul ((continuous_const.mul continuous_id).mul (continuous_etaZ 2 Z0))))

theorem evalAll_rel1 (v : ℕ → ℝ) (h s : ℝ) (i : ℕ) :
    evalAll v h s (rel1 a c i) = (s * h) * eval v h s (c i) - eval v h s (euler (a i)) - eval v h s (a (i + 1)) +
      gi i * eval v h s (a i) := by
  unfold rel1 gi
  split
  · simp only [evalAll, eval_mulDelta, eval_scale, eval]; push_cast; ring
  · simp only [evalAll, eval_mulDelta, eval_scale]; push_cast; ring

theorem evalAll_rel2 (v : ℕ → ℝ) (h s : ℝ) (i : ℕ) :
    evalAll v h s (rel2 a c i) = (s * h) * (eval v h s (euler (c i)) + eval v h s (c (i + 1)) - gi i * eval v h s (c i))
      - eval v h s (a (i + 2)) + gi i * eval v h s (a (i + 1)) := by
  unfold rel2 gi
  split
  · simp only [evalAll, eval_mulDelta, eval_scale, eval]; push_cast; ring
  · simp only [evalAll, eval_mulDelta, eval_scale]; push_cast; ring

theorem eval_negDD (v : ℕ → ℝ) (h s : ℝ) (i : ℕ) :
    eval v h s (negDD a i) = -((s * h) ^ 2 * eval v h s (a i)) := by
  unfold negDD
  rw [eval_scale, eval_mulDelta, eval_mulDelta]; push_cast; ring

/-- `δ (U' - W)` -/
theorem resid1 (C : Cert nV N n κ a c) (v : ℕ → ℝ) {h : ℝ} (hh : h ≠ 0) (Z0 δ : ℝ) :
    δ * (Wf n κ c v h Z0 δ - Ud n a v h Z0 δ) =
      ∑ i ∈ Finset.range n, evalAll v h (δ / h) (rel1 a c i) * eta i (Z0 * δ ^ 2) := by
  obtain ⟨m, rfl⟩ : ∃ m, n = m + 1 := ⟨n - 1, by have := C.n_pos; omega⟩
  have hs : δ / h * h = δ := div_mul_cancel₀ δ hh
  have hrec := fun j => eta_rec j (Z0 * δ ^ 2)
  have k1 := shift_sum_zero (fun i => eval v h (δ / h) (a i)) (fun i => eta i (Z0 * δ ^ 2)) (Z0 * δ ^ 2) hrec m
    (by simp only [C.a_end.1]; rfl)
  simp only [evalAll_rel1, hs]
  have e1 : δ * Ud (m + 1) a v h Z0 δ = ∑ i ∈ Finset.range (m + 1), eval v h (δ / h) (euler (a i)) * eta i (Z0 * δ ^ 2) +
      ∑ i ∈ Finset.range (m + 1), eval v h (δ / h) (a i) * (Z0 * δ ^ 2 * eta (i + 1) (Z0 * δ ^ 2)) := by
    unfold Ud
    rw [Finset.mul_sum, ← Finset.sum_add_distrib]
    refine Finset.sum_congr rfl (fun i _ => ?_)
    rw [← mul_evalD v hh]; ring
  have e2 : δ * Wf (m + 1) κ c v h Z0 δ = D * κ * (Z0 * δ ^ 2 * eta 1 (Z0 * δ ^ 2)) +
      ∑ i ∈ Finset.range (m + 1), δ * eval v h (δ / h) (c i) * eta i (Z0 * δ ^ 2) := by
    unfold Wf Uf
    rw [mul_add, Finset.mul_sum]
    congr 1
    · ring
    · exact Finset.sum_congr rfl (fun i _ => by ring)
  rw [mul_sub, e1, e2, k1, C.a_zero]
  have e3 : ∀ f g k l : ℕ → ℝ, ∑ i ∈ Finset.range (m + 1), (f i - g i - k i + l i) * eta i (Z0 * δ ^ 2) =
      ∑ i ∈ Finset.range (m + 1), f i * eta i (Z0 * δ ^ 2) - ∑ i ∈ Finset.range (m + 1), g i * eta i (Z0 * δ ^ 2) -
        ∑ i ∈ Finset.range (m + 1), (k i - l i) * eta i (Z0 * δ ^ 2) := by
    intro f g k l
    rw [← Finset.sum_sub_distrib, ← Finset.sum_sub_distrib]
    exact Finset.sum_congr rfl (fun i _ => by ring)
  rw [e3]; ring

/-- `δ² (W' - (Z₀ + ΔV) U)` -/
theorem resid2 (C : Cert nV N n κ a c) (v : ℕ → ℝ) {h : ℝ} (hh : h ≠ 0) (Z0 δ : ℝ) :
    δ ^ 2 * (Wd n κ c v h Z0 δ - (Z0 + dV nV v h δ) * Uf n a v h Z0 δ) =
      ∑ i ∈ Finset.range n, (evalAll v h (δ / h) (rel2 a c i ++ dVmul nV low N (negDD a i)) +
        evalAll v h (δ / h) (dVmul nV high N (negDD a i))) * eta i (Z0 * δ ^ 2) := by
  obtain ⟨m, rfl⟩ : ∃ m, n = m + 1 := ⟨n - 1, by have := C.n_pos; omega⟩
  have hs : δ / h * h = δ := div_mul_cancel₀ δ hh
  have hrec := fun j => eta_rec j (Z0 * δ ^ 2)
  have k1 := shift_sum_zero (fun i => eval v h (δ / h) (c i)) (fun i => eta i (Z0 * δ ^ 2)) (Z0 * δ ^ 2) hrec m
    (by simp only [C.c_end]; rfl)
  have k2 := shift_sum2 (fun i => eval v h (δ / h) (a i)) (fun i => eta i (Z0 * δ ^ 2)) (Z0 * δ ^ 2) hrec m
    (by simp only [C.a_end.1]; rfl) (by simp only [C.a_end.2]; rfl)
  have k3 : δ * eval v h (δ / h) (c 0) = eval v h (δ / h) (a 1) := by
    have h1 := C.r10 v h (δ / h)
    rw [evalAll_rel1, hs] at h1
    have h2 : eval v h (δ / h) (euler (a 0)) = 0 := by
      rw [← mul_evalD v hh]
      have h3 := hasDerivAt_eval v h (a 0) δ
      have h4 : HasDerivAt (fun δ => eval v h (δ / h) (a 0)) 0 δ := by
        have : (fun δ => eval v h (δ / h) (a 0)) = fun _ => (D * κ : ℝ) := funext (fun δ => C.a_zero v h _)
        rw [this]; exact hasDerivAt_const _ _
      rw [h3.unique h4, mul_zero]
    rw [h2] at h1
    simp [gi] at h1
    linarith
  simp only [evalAll_append, evalAll_rel2, hs]
  have e0 : ∀ i, evalAll v h (δ / h) (dVmul nV low N (negDD a i)) + evalAll v h (δ / h) (dVmul nV high N (negDD a i)) =
      - (δ ^ 2 * dV nV v h δ * eval v h (δ / h) (a i)) := by
    intro i; rw [evalAll_dVmul_low_high, eval_negDD, hs]; ring
  have e1 : δ * Ud (m + 1) c v h Z0 δ = ∑ i ∈ Finset.range (m + 1), eval v h (δ / h) (euler (c i)) * eta i (Z0 * δ ^ 2) +
      ∑ i ∈ Finset.range (m + 1), eval v h (δ / h) (c i) * (Z0 * δ ^ 2 * eta (i + 1) (Z0 * δ ^ 2)) := by
    unfold Ud
    rw [Finset.mul_sum, ← Finset.sum_add_distrib]
    refine Finset.sum_congr rfl (fun i _ => ?_)
    rw [← mul_evalD v hh]; ring
  have e2 : Z0 * δ ^ 2 * Uf (m + 1) a v h Z0 δ =
      ∑ i ∈ Finset.range (m + 1), eval v h (δ / h) (a i) * (Z0 * δ ^ 2 * eta i (Z0 * δ ^ 2)) := by
    unfold Uf
    rw [Finset.mul_sum]
    exact Finset.sum_congr rfl (fun i _ => by ring)
  have e3 : δ ^ 2 * dV nV v h δ * Uf (m + 1) a v h Z0 δ =
      ∑ i ∈ Finset.range (m + 1), (δ ^ 2 * dV nV v h δ * eval v h (δ / h) (a i)) * eta i (Z0 * δ ^ 2) := by
    unfold Uf
    rw [Finset.mul_sum]
    exact Finset.sum_congr rfl (fun i _ => by ring)
  have e4 : δ ^ 2 * (Wd (m + 1) κ c v h Z0 δ - (Z0 + dV nV v h δ) * Uf (m + 1) a v h Z0 δ) =
      D * κ * (Z0 * δ ^ 2 * eta 0 (Z0 * δ ^ 2)) + δ * (δ * Ud (m + 1) c v h Z0 δ) - Z0 * δ ^ 2 * Uf (m + 1) a v h Z0 δ -
        δ ^ 2 * dV nV v h δ * Uf (m + 1) a v h Z0 δ := by
    unfold Wd
    have := hrec 0
    simp only [Nat.cast_zero, zero_add] at this
    rw [this]; ring
  rw [e4, e1, e2, e3, k1, k2, C.a_zero]
  have e5 : ∀ i, (δ * (eval v h (δ / h) (euler (c i)) + eval v h (δ / h) (c (i + 1)) - gi i * eval v h (δ / h) (c i)) -
        eval v h (δ / h) (a (i + 2)) + gi i * eval v h (δ / h) (a (i + 1)) +
        evalAll v h (δ / h) (dVmul nV low N (negDD a i)) +
        evalAll v h (δ / h) (dVmul nV high N (negDD a i))) * eta i (Z0 * δ ^ 2) =
      δ * (eval v h (δ / h) (euler (c i)) * eta i (Z0 * δ ^ 2)) +
      δ * ((eval v h (δ / h) (c (i + 1)) - gi i * eval v h (δ / h) (c i)) * eta i (Z0 * δ ^ 2)) -
      (eval v h (δ / h) (a (i + 2)) - gi i * eval v h (δ / h) (a (i + 1))) * eta i (Z0 * δ ^ 2) -
      (δ ^ 2 * dV nV v h δ * eval v h (δ / h) (a i)) * eta i (Z0 * δ ^ 2) := by
    intro i
    have := e0 i
    linear_combination eta i (Z0 * δ ^ 2) * this
  simp only [e5, Finset.sum_sub_distrib, Finset.sum_add_distrib, ← Finset.mul_sum]
  linear_combination (Z0 * δ ^ 2 * eta 1 (Z0 * δ ^ 2)) * k3

end
end Verif.PL
