import Verif.Lemmas.CPMError
import Verif.Spec.Energy

/-!
# Local error of the energy derivatives of a certified pair of tables

The residuals of `CPMError` are identities in the energy, so they can be differentiated with respect to it: the derivatives of `U` and `W` with respect to `Z₀ = v₀ - E`
satisfy the differentiated equation up to residuals of the same order.
-/
namespace Verif.PL
open Verif.Formulas Verif.Legendre Verif.Eta
open scoped BigOperators

section
variable {nV N n : ℕ} {κ : ℤ} {a c : ℕ → PL}

/-- derivative of `U` with respect to `Z₀` -/
noncomputable def UZ (n : ℕ) (a : ℕ → PL) (v : ℕ → ℝ) (h Z0 δ : ℝ) : ℝ :=
  ∑ i ∈ Finset.range n, eval v h (δ / h) (a i) * (δ ^ 2 / 2 * eta (i + 1) (Z0 * δ ^ 2))
/-- derivative of `W` with respect to `Z₀` -/
noncomputable def WZ (n : ℕ) (κ : ℤ) (c : ℕ → PL) (v : ℕ → ℝ) (h Z0 δ : ℝ) : ℝ :=
  D * κ * (δ * eta 1 (Z0 * δ ^ 2) + Z0 * δ * (δ ^ 2 / 2 * eta 2 (Z0 * δ ^ 2))) + UZ n c v h Z0 δ
/-- derivative of `U'` with respect to `Z₀` -/
noncomputable def UZd (n : ℕ) (a : ℕ → PL) (v : ℕ → ℝ) (h Z0 δ : ℝ) : ℝ :=
  ∑ i ∈ Finset.range n, (evalD v h δ (a i) * (δ ^ 2 / 2 * eta (i + 1) (Z0 * δ ^ 2)) +
    eval v h (δ / h) (a i) * (δ * eta (i + 1) (Z0 * δ ^ 2) + δ ^ 2 / 2 * (Z0 * δ * eta (i + 2) (Z0 * δ ^ 2))))
/-- derivative of `W'` with respect to `Z₀` -/
noncomputable def WZd (n : ℕ) (κ : ℤ) (c : ℕ → PL) (v : ℕ → ℝ) (h Z0 δ : ℝ) : ℝ :=
  D * κ * (eta 1 (Z0 * δ ^ 2) + δ * (Z0 * δ * eta 2 (Z0 * δ ^ 2)) + (Z0 * (δ ^ 2 / 2 * eta 2 (Z0 * δ ^ 2)) +
    Z0 * δ * (δ * eta 2 (Z0 * δ ^ 2) + δ ^ 2 / 2 * (Z0 * δ * eta 3 (Z0 * δ ^ 2))))) + UZd n c v h Z0 δ

theorem hasDerivAt_Zeta (i : ℕ) (Z0 δ : ℝ) : HasDerivAt (fun Z => eta i (Z * δ ^ 2)) (δ ^ 2 / 2 * eta (i + 1) (Z0 * δ ^ 2)) Z0 := by
  have h1 : HasDerivAt (fun Z : ℝ => Z * δ ^ 2) (1 * δ ^ 2) Z0 := (hasDerivAt_id Z0).mul_const _
  have h2 := (hasDerivAt_eta i (Z0 * δ ^ 2)).comp Z0 h1
  exact h2.congr_deriv (by ring)

theorem hasDerivAt_half_sq (δ : ℝ) : HasDerivAt (fun δ : ℝ => δ ^ 2 / 2) δ δ :=
  (((hasDerivAt_id δ).fun_pow 2).div_const 2).congr_deriv (by simp)

theorem hasDerivAt_UZ (v : ℕ → ℝ) (h Z0 δ : ℝ) : HasDerivAt (UZ n a v h Z0) (UZd n a v h Z0 δ) δ := by
  unfold UZ UZd
  exact HasDerivAt.fun_sum (fun i _ => (hasDerivAt_eval v h (a i) δ).mul ((hasDerivAt_half_sq δ).mul (hasDerivAt_etaZ (i + 1) Z0 δ)))

theorem hasDerivAt_WZ (v : ℕ → ℝ) (h Z0 δ : ℝ) : HasDerivAt (WZ n κ c v h Z0) (WZd n κ c v h Z0 δ) δ := by
  unfold WZ WZd
  have h1 : HasDerivAt (fun δ : ℝ => Z0 * δ) Z0 δ := ((hasDerivAt_id δ).const_mul Z0).congr_deriv (by simp)
  have h2 := (hasDerivAt_id δ).fun_mul (hasDerivAt_etaZ 1 Z0 δ)
  have h3 := h1.fun_mul ((hasDerivAt_half_sq δ).fun_mul (hasDerivAt_etaZ 2 Z0 δ))
  refine (((h2.add h3).const_mul (D * κ : ℝ)).add (hasDerivAt_UZ v h Z0 δ)).congr_deriv ?_
  simp only [id]; ring

theorem hasDerivAt_Z_Uf (v : ℕ → ℝ) (h Z0 δ : ℝ) : HasDerivAt (fun Z => Uf n a v h Z δ) (UZ n a v h Z0 δ) Z0 := by
  unfold Uf UZ
  exact HasDerivAt.fun_sum (fun i _ => (hasDerivAt_Zeta i Z0 δ).const_mul _)

theorem hasDerivAt_Z_Ud (v : ℕ → ℝ) (h Z0 δ : ℝ) : HasDerivAt (fun Z => Ud n a v h Z δ) (UZd n a v h Z0 δ) Z0 := by
  unfold Ud UZd
  refine HasDerivAt.fun_sum (fun i _ => ?_)
  have h1 : HasDerivAt (fun Z : ℝ => Z * δ) δ Z0 := ((hasDerivAt_id Z0).mul_const δ).congr_deriv (by simp)
  exact (((hasDerivAt_Zeta i Z0 δ).const_mul (evalD v h δ (a i))).add ((h1.mul (hasDerivAt_Zeta (i + 1) Z0 δ)).const_mul (eval v h (δ / h) (a i)))).congr_deriv (by ring)

theorem hasDerivAt_Z_Wf (v : ℕ → ℝ) (h Z0 δ : ℝ) : HasDerivAt (fun Z => Wf n κ c v h Z δ) (WZ n κ c v h Z0 δ) Z0 := by
  unfold Wf WZ
  have h1 : HasDerivAt (fun Z : ℝ => Z * δ) δ Z0 := ((hasDerivAt_id Z0).mul_const δ).congr_deriv (by simp)
  exact ((h1.mul (hasDerivAt_Zeta 1 Z0 δ)).const_mul _).add (hasDerivAt_Z_Uf v h Z0 δ)

theorem hasDerivAt_Z_Wd (v : ℕ → ℝ) (h Z0 δ : ℝ) : HasDerivAt (fun Z => Wd n κ c v h Z δ) (WZd n κ c v h Z0 δ) Z0 := by
  unfold Wd WZd
  have h1 : HasDerivAt (fun Z : ℝ => Z * δ) δ Z0 := ((hasDerivAt_id Z0).mul_const δ).congr_deriv (by simp)
  have h2 := (hasDerivAt_id Z0).fun_mul (hasDerivAt_Zeta 1 Z0 δ)
  have h3 := h1.fun_mul (h1.fun_mul (hasDerivAt_Zeta 2 Z0 δ))
  refine (((h2.add h3).const_mul (D * κ : ℝ)).add (hasDerivAt_Z_Ud v h Z0 δ)).congr_deriv ?_
  simp only [id]; ring

theorem residZ1 (C : Cert nV N n κ a c) (v : ℕ → ℝ) {h : ℝ} (hh : h ≠ 0) (Z0 δ : ℝ) :
    δ * (WZ n κ c v h Z0 δ - UZd n a v h Z0 δ) =
      ∑ i ∈ Finset.range n, evalAll v h (δ / h) (rel1 a c i) * (δ ^ 2 / 2 * eta (i + 1) (Z0 * δ ^ 2)) := by
  have h1 := ((hasDerivAt_Z_Wf (n := n) (κ := κ) (c := c) v h Z0 δ).sub (hasDerivAt_Z_Ud (n := n) (a := a) v h Z0 δ)).const_mul δ
  have h2 : HasDerivAt (fun Z => ∑ i ∈ Finset.range n, evalAll v h (δ / h) (rel1 a c i) * eta i (Z * δ ^ 2))
      (∑ i ∈ Finset.range n, evalAll v h (δ / h) (rel1 a c i) * (δ ^ 2 / 2 * eta (i + 1) (Z0 * δ ^ 2))) Z0 :=
    HasDerivAt.fun_sum (fun i _ => (hasDerivAt_Zeta i Z0 δ).const_mul _)
  have e : (fun Z => δ * (Wf n κ c v h Z δ - Ud n a v h Z δ)) = fun Z => ∑ i ∈ Finset.range n, evalAll v h (δ / h) (rel1 a c i) * eta i (Z * δ ^ 2) :=
    funext (fun Z => resid1 C v hh Z δ)
  rw [← e] at h2
  exact h1.unique h2

theorem residZ2 (C : Cert nV N n κ a c) (v : ℕ → ℝ) {h : ℝ} (hh : h ≠ 0) (Z0 δ : ℝ) :
    δ ^ 2 * (WZd n κ c v h Z0 δ - (Uf n a v h Z0 δ + (Z0 + dV nV v h δ) * UZ n a v h Z0 δ)) =
      ∑ i ∈ Finset.range n, (evalAll v h (δ / h) (rel2 a c i ++ dVmul nV low N (negDD a i)) +
        evalAll v h (δ / h) (dVmul nV high N (negDD a i))) * (δ ^ 2 / 2 * eta (i + 1) (Z0 * δ ^ 2)) := by
  have h0 := ((hasDerivAt_id Z0).add_const (dV nV v h δ)).mul (hasDerivAt_Z_Uf (n := n) (a := a) v h Z0 δ)
  have h1 := ((hasDerivAt_Z_Wd (n := n) (κ := κ) (c := c) v h Z0 δ).sub h0).const_mul (δ ^ 2)
  have h2 : HasDerivAt (fun Z => ∑ i ∈ Finset.range n, (evalAll v h (δ / h) (rel2 a c i ++ dVmul nV low N (negDD a i)) +
        evalAll v h (δ / h) (dVmul nV high N (negDD a i))) * eta i (Z * δ ^ 2))
      (∑ i ∈ Finset.range n, (evalAll v h (δ / h) (rel2 a c i ++ dVmul nV low N (negDD a i)) +
        evalAll v h (δ / h) (dVmul nV high N (negDD a i))) * (δ ^ 2 / 2 * eta (i + 1) (Z0 * δ ^ 2))) Z0 :=
    HasDerivAt.fun_sum (fun i _ => (hasDerivAt_Zeta i Z0 δ).const_mul _)
  have e : (fun Z => δ ^ 2 * (Wd n κ c v h Z δ - (Z + dV nV v h δ) * Uf n a v h Z δ)) =
      fun Z => ∑ i ∈ Finset.range n, (evalAll v h (δ / h) (rel2 a c i ++ dVmul nV low N (negDD a i)) +
        evalAll v h (δ / h) (dVmul nV high N (negDD a i))) * eta i (Z * δ ^ 2) := funext (fun Z => resid2 C v hh Z δ)
  rw [← e] at h2
  have := h1.unique h2
  simp only [id, one_mul] at this
  exact this

theorem abs_etaZ1_le {M Z0 δ : ℝ} (hZ : |Z0| ≤ M) (h0 : 0 ≤ δ) (h1 : δ ≤ 1) (i : ℕ) :
    |δ ^ 2 / 2 * eta i (Z0 * δ ^ 2)| ≤ Real.exp M := by
  rw [abs_mul, abs_of_nonneg (by positivity : 0 ≤ δ ^ 2 / 2)]
  have := abs_etaZ_le hZ h0 h1 i
  have h2 : δ ^ 2 / 2 ≤ 1 := by nlinarith
  exact (mul_le_of_le_one_left (abs_nonneg _) h2).trans this

theorem boundZ1_pos (C : Cert nV N n κ a c) (hN : 1 ≤ N) {v : ℕ → ℝ} {M : ℝ} (hM : 1 ≤ M) (hv : ∀ k, 1 ≤ k → |v k| ≤ M)
    {h Z0 δ : ℝ} (h0 : 0 < h) (h1 : h ≤ 1) (hZ : |Z0| ≤ M) (d0 : 0 < δ) (d1 : δ ≤ h) :
    |WZ n κ c v h Z0 δ - UZd n a v h Z0 δ| ≤ B1 N n a c M * h ^ (N - 1) := by
  have s0 : 0 ≤ δ / h := by positivity
  have s1 : δ / h ≤ 1 := (div_le_one h0).mpr d1
  have key := residZ1 C v h0.ne' Z0 δ
  have hs : ∀ i ∈ Finset.range n, |evalAll v h (δ / h) (rel1 a c i) * (δ ^ 2 / 2 * eta (i + 1) (Z0 * δ ^ 2))| ≤
      (bndAll M ((rel1 a c i).map (high N)) * Real.exp M) * (h ^ (N - 1) * δ) := by
    intro i hi
    rw [Finset.mem_range] at hi
    rw [eval_of_cancels v h (δ / h) (C.r1 i hi), abs_mul]
    have e1 := evalAll_bound hM hv h0.le h1 s0 s1 (N := N) (p := 1) ((rel1 a c i).map (high N))
      (fun l hl => by obtain ⟨l, _, rfl⟩ := List.mem_map.mp hl; exact high_ord N l)
      (fun l hl => by obtain ⟨l, hl', rfl⟩ := List.mem_map.mp hl; exact (C.g1 i hi l hl').high N)
    have e2 := abs_etaZ1_le hZ d0.le (d1.trans h1) (i + 1)
    have e3 : h ^ N * (δ / h) ^ 1 = h ^ (N - 1) * δ := by
      obtain ⟨p, rfl⟩ : ∃ p, N = p + 1 := ⟨N - 1, by omega⟩
      rw [Nat.add_sub_cancel, pow_succ]; field_simp
    rw [e3] at e1
    calc _ ≤ (bndAll M ((rel1 a c i).map (high N)) * (h ^ (N - 1) * δ)) * Real.exp M :=
          mul_le_mul e1 e2 (abs_nonneg _) (mul_nonneg (bndAll_nonneg (by linarith) _) (by positivity))
      _ = _ := by ring
  have h3 : |δ * (WZ n κ c v h Z0 δ - UZd n a v h Z0 δ)| ≤ B1 N n a c M * (h ^ (N - 1) * δ) := by
    rw [key, B1, Finset.sum_mul]
    exact (Finset.abs_sum_le_sum_abs _ _).trans (Finset.sum_le_sum hs)
  rw [abs_mul, abs_of_pos d0] at h3
  have h4 : δ * |WZ n κ c v h Z0 δ - UZd n a v h Z0 δ| ≤ δ * (B1 N n a c M * h ^ (N - 1)) := by linarith
  exact le_of_mul_le_mul_left h4 d0

theorem boundZ2_pos (C : Cert nV N n κ a c) (hN : 2 ≤ N) {v : ℕ → ℝ} {M : ℝ} (hM : 1 ≤ M) (hv : ∀ k, 1 ≤ k → |v k| ≤ M)
    {h Z0 δ : ℝ} (h0 : 0 < h) (h1 : h ≤ 1) (hZ : |Z0| ≤ M) (d0 : 0 < δ) (d1 : δ ≤ h) :
    |WZd n κ c v h Z0 δ - (Uf n a v h Z0 δ + (Z0 + dV nV v h δ) * UZ n a v h Z0 δ)| ≤ B2 nV N n a c M * h ^ (N - 2) := by
  have s0 : 0 ≤ δ / h := by positivity
  have s1 : δ / h ≤ 1 := (div_le_one h0).mpr d1
  have key := residZ2 C v h0.ne' Z0 δ
  have e3 : h ^ N * (δ / h) ^ 2 = h ^ (N - 2) * δ ^ 2 := by
    obtain ⟨p, rfl⟩ : ∃ p, N = p + 2 := ⟨N - 2, by omega⟩
    rw [Nat.add_sub_cancel, pow_add]; field_simp
  have hs : ∀ i ∈ Finset.range n, |(evalAll v h (δ / h) (rel2 a c i ++ dVmul nV low N (negDD a i)) +
        evalAll v h (δ / h) (dVmul nV high N (negDD a i))) * (δ ^ 2 / 2 * eta (i + 1) (Z0 * δ ^ 2))| ≤
      ((bndAll M ((rel2 a c i ++ dVmul nV low N (negDD a i)).map (high N)) +
        bndAll M (dVmul nV high N (negDD a i))) * Real.exp M) * (h ^ (N - 2) * δ ^ 2) := by
    intro i hi
    rw [Finset.mem_range] at hi
    rw [eval_of_cancels v h (δ / h) (C.r2 i hi), abs_mul]
    have e1 := evalAll_bound hM hv h0.le h1 s0 s1 (N := N) (p := 2)
      ((rel2 a c i ++ dVmul nV low N (negDD a i)).map (high N))
      (fun l hl => by obtain ⟨l, _, rfl⟩ := List.mem_map.mp hl; exact high_ord N l)
      (fun l hl => by
        obtain ⟨l, hl', rfl⟩ := List.mem_map.mp hl
        refine Good.high ?_ N
        rcases List.mem_append.mp hl' with h' | h'
        · exact C.g2 i hi l h'
        · obtain ⟨k, j, rfl⟩ := mem_dVmul h'
          refine Good.mulV ?_ (by omega) _ _
          exact fun m hm => C.g3 i hi m (List.mem_of_mem_filter hm))
    have e1' := evalAll_bound hM hv h0.le h1 s0 s1 (N := N) (p := 2) (dVmul nV high N (negDD a i))
      (fun l hl => by
        obtain ⟨k, j, rfl⟩ := mem_dVmul hl
        exact mulV_ord (high_ord _ _) _ _)
      (fun l hl => by
        obtain ⟨k, j, rfl⟩ := mem_dVmul hl
        exact Good.mulV ((C.g3 i hi).high _) (by omega) _ _)
    have e2 := abs_etaZ1_le hZ d0.le (d1.trans h1) (i + 1)
    rw [e3] at e1 e1'
    have e4 := (abs_add_le (evalAll v h (δ / h) ((rel2 a c i ++ dVmul nV low N (negDD a i)).map (high N)))
      (evalAll v h (δ / h) (dVmul nV high N (negDD a i)))).trans (add_le_add e1 e1')
    rw [← add_mul] at e4
    calc _ ≤ ((bndAll M ((rel2 a c i ++ dVmul nV low N (negDD a i)).map (high N)) +
        bndAll M (dVmul nV high N (negDD a i))) * (h ^ (N - 2) * δ ^ 2)) * Real.exp M :=
          mul_le_mul e4 e2 (abs_nonneg _)
            (mul_nonneg (add_nonneg (bndAll_nonneg (by linarith) _) (bndAll_nonneg (by linarith) _)) (by positivity))
      _ = _ := by ring
  have h3 : |δ ^ 2 * (WZd n κ c v h Z0 δ - (Uf n a v h Z0 δ + (Z0 + dV nV v h δ) * UZ n a v h Z0 δ))| ≤ B2 nV N n a c M * (h ^ (N - 2) * δ ^ 2) := by
    rw [key, B2, Finset.sum_mul]
    exact (Finset.abs_sum_le_sum_abs _ _).trans (Finset.sum_le_sum hs)
  rw [abs_mul, abs_of_pos (by positivity)] at h3
  have h4 : δ ^ 2 * |WZd n κ c v h Z0 δ - (Uf n a v h Z0 δ + (Z0 + dV nV v h δ) * UZ n a v h Z0 δ)| ≤ δ ^ 2 * (B2 nV N n a c M * h ^ (N - 2)) := by
    linarith
  exact le_of_mul_le_mul_left h4 (by positivity)

theorem continuous_UZ (v : ℕ → ℝ) (h Z0 : ℝ) : Continuous (UZ n a v h Z0) :=
  continuous_iff_continuousAt.mpr (fun δ => (hasDerivAt_UZ v h Z0 δ).continuousAt)
theorem continuous_WZ (v : ℕ → ℝ) (h Z0 : ℝ) : Continuous (WZ n κ c v h Z0) :=
  continuous_iff_continuousAt.mpr (fun δ => (hasDerivAt_WZ v h Z0 δ).continuousAt)

theorem continuous_UZd (v : ℕ → ℝ) (h Z0 : ℝ) : Continuous (UZd n a v h Z0) := by
  unfold UZd
  refine continuous_finsetSum _ (fun i _ => ?_)
  have c1 := continuous_etaZ (i + 1) Z0
  have c2 := continuous_etaZ (i + 2) Z0
  have c3 := continuous_evalD v h (a i)
  have c4 := continuous_eval v h (a i)
  fun_prop

theorem continuous_WZd (v : ℕ → ℝ) (h Z0 : ℝ) : Continuous (WZd n κ c v h Z0) := by
  unfold WZd
  refine Continuous.add ?_ (continuous_UZd v h Z0)
  have c1 := continuous_etaZ 1 Z0
  have c2 := continuous_etaZ 2 Z0
  have c3 := continuous_etaZ 3 Z0
  fun_prop

theorem boundZ1 (C : Cert nV N n κ a c) (hN : 1 ≤ N) {v : ℕ → ℝ} {M : ℝ} (hM : 1 ≤ M) (hv : ∀ k, 1 ≤ k → |v k| ≤ M)
    {h Z0 δ : ℝ} (h0 : 0 < h) (h1 : h ≤ 1) (hZ : |Z0| ≤ M) (hδ : δ ∈ Set.Icc 0 h) :
    |UZd n a v h Z0 δ - WZ n κ c v h Z0 δ| ≤ B1 N n a c M * h ^ (N - 1) := by
  rw [abs_sub_comm]
  exact bound_at_zero (f := fun δ => |WZ n κ c v h Z0 δ - UZd n a v h Z0 δ|)
    ((continuous_WZ v h Z0).sub (continuous_UZd v h Z0)).abs h0 (fun δ a b => boundZ1_pos C hN hM hv h0 h1 hZ a b) hδ

theorem boundZ2 (C : Cert nV N n κ a c) (hN : 2 ≤ N) {v : ℕ → ℝ} {M : ℝ} (hM : 1 ≤ M) (hv : ∀ k, 1 ≤ k → |v k| ≤ M)
    {h Z0 δ : ℝ} (h0 : 0 < h) (h1 : h ≤ 1) (hZ : |Z0| ≤ M) (hδ : δ ∈ Set.Icc 0 h) :
    |WZd n κ c v h Z0 δ - (Uf n a v h Z0 δ + (Z0 + dV nV v h δ) * UZ n a v h Z0 δ)| ≤ B2 nV N n a c M * h ^ (N - 2) :=
  bound_at_zero (f := fun δ => |WZd n κ c v h Z0 δ - (Uf n a v h Z0 δ + (Z0 + dV nV v h δ) * UZ n a v h Z0 δ)|)
    ((continuous_WZd v h Z0).sub ((continuous_Uf v h Z0).add ((continuous_const.add (continuous_dV nV v h)).mul (continuous_UZ v h Z0)))).abs h0
    (fun δ a b => boundZ2_pos C hN hM hv h0 h1 hZ a b) hδ

theorem abs_UZ_le (ha : ∀ i, Good 0 (a i)) {v : ℕ → ℝ} {M : ℝ} (hM : 1 ≤ M) (hv : ∀ k, 1 ≤ k → |v k| ≤ M)
    {h Z0 δ : ℝ} (h0 : 0 < h) (h1 : h ≤ 1) (hZ : |Z0| ≤ M) (hδ : δ ∈ Set.Icc 0 h) : |UZ n a v h Z0 δ| ≤ BU n a M := by
  unfold UZ BU
  refine (Finset.abs_sum_le_sum_abs _ _).trans (Finset.sum_le_sum (fun i _ => ?_))
  rw [abs_mul]
  exact mul_le_mul (eval_bound0 (ha i) hM hv h0 h1 hδ) (abs_etaZ1_le hZ hδ.1 (hδ.2.trans h1) (i + 1)) (abs_nonneg _)
    (bnd_nonneg (by linarith) _)

theorem UZ_zero (v : ℕ → ℝ) (h Z0 : ℝ) : UZ n a v h Z0 0 = 0 := by simp [UZ]
theorem WZ_zero (v : ℕ → ℝ) (h Z0 : ℝ) : WZ n κ c v h Z0 0 = 0 := by simp [WZ, UZ]

end

/-- The constant of the local error of the energy derivatives. -/
noncomputable def locZ (nV N n : ℕ) (a b c d : ℕ → PL) (M : ℝ) : ℝ :=
  (B1 N n a c M + B2 nV N n a c M + B1 N n b d M + B2 nV N n b d M + BU n a M + BU n b M + locC nV N n a b c d M) *
    Real.exp (M + dVbnd nV M + M)

theorem locZ_nonneg (nV N n : ℕ) (a b c d : ℕ → PL) {M : ℝ} (hM : 0 ≤ M) : 0 ≤ locZ nV N n a b c d M := by
  unfold locZ
  have := B1_nonneg (N := N) (n := n) (a := a) (c := c) hM
  have := B1_nonneg (N := N) (n := n) (a := b) (c := d) hM
  have := B2_nonneg (nV := nV) (N := N) (n := n) (a := a) (c := c) hM
  have := B2_nonneg (nV := nV) (N := N) (n := n) (a := b) (c := d) hM
  have := BU_nonneg (n := n) (a := a) hM
  have := BU_nonneg (n := n) (a := b) hM
  have := locC_nonneg nV N n a b c d hM
  positivity

set_option maxHeartbeats 1000000 in
/-- The differentiated formulas reproduce the energy derivative of every solution up to `C (h^(N-1) + h ε)`. -/
theorem local_errorZ {nV N n : ℕ} {a b c d : ℕ → PL} (C : Cert2 nV N n a b c d) (hN : 2 ≤ N) {M : ℝ} (hM : 1 ≤ M)
    {v : ℕ → ℝ} (hv : ∀ k, 1 ≤ k → |v k| ≤ M) {h E : ℝ} (h0 : 0 < h) (h1 : h ≤ 1) (hE : |v 0 - E| ≤ M) {V : ℝ → ℝ} {ε : ℝ}
    (hε : ε ≤ M) (hV : ∀ x ∈ Set.Icc 0 h, |V x - (v 0 + dV nV v h x)| ≤ ε) {y dy z dz : ℝ → ℝ}
    (hs : SolvesOn V E 0 h y dy) (hz : EnergyOn V E 0 h y z dz) (z0 : z 0 = 0) (dz0 : dz 0 = 0) {δ : ℝ} (hδ : δ ∈ Set.Icc 0 h) :
    |-((UZ n a v h (v 0 - E) δ * y 0 + UZ n b v h (v 0 - E) δ * dy 0) / D) - z δ| ≤
        locZ nV N n a b c d M * (h ^ (N - 2) + ε) * δ * max |y 0| |dy 0| ∧
    |-((WZ n 1 c v h (v 0 - E) δ * y 0 + WZ n 0 d v h (v 0 - E) δ * dy 0) / D) - dz δ| ≤
        locZ nV N n a b c d M * (h ^ (N - 2) + ε) * δ * max |y 0| |dy 0| := by
  have loc := fun x hx => (local_error C hN hM hv h0 h1 hE hε hV hs (δ := x) hx).1
  set Z0 := v 0 - E with hZ0
  set Y := max |y 0| |dy 0| with hY
  have hY0 : 0 ≤ Y := le_max_of_le_left (abs_nonneg _)
  have hy0 : |y 0| ≤ Y := le_max_left _ _
  have hdy0 : |dy 0| ≤ Y := le_max_right _ _
  have hM0 : 0 ≤ M := by linarith
  have hε0 : 0 ≤ ε := (abs_nonneg _).trans (hV 0 ⟨le_rfl, h0.le⟩)
  have hD : (1 : ℝ) ≤ D := by unfold D; norm_num
  have hD0 : (0 : ℝ) < D := by linarith
  set K := M + dVbnd nV M + M with hK
  have hdb := dVbnd_nonneg nV hM0
  have hq : ∀ x ∈ Set.Icc 0 h, |V x - E| ≤ K := by
    intro x hx
    have e1 := hV x hx
    have e2 := abs_dV_le nV hM hv h0 h1 hx.1 hx.2
    have e3 : V x - E = (V x - (v 0 + dV nV v h x)) + (Z0 + dV nV v h x) := by rw [hZ0]; ring
    rw [e3]
    refine (abs_add_le _ _).trans ?_
    have := abs_add_le Z0 (dV nV v h x)
    linarith
  set LC := locC nV N n a b c d M with hLC
  set S := B1 N n a c M + B2 nV N n a c M + B1 N n b d M + B2 nV N n b d M + BU n a M + BU n b M + LC with hS
  have p1 := B1_nonneg (N := N) (n := n) (a := a) (c := c) hM0
  have p2 := B1_nonneg (N := N) (n := n) (a := b) (c := d) hM0
  have p3 := B2_nonneg (nV := nV) (N := N) (n := n) (a := a) (c := c) hM0
  have p4 := B2_nonneg (nV := nV) (N := N) (n := n) (a := b) (c := d) hM0
  have p5 := BU_nonneg (n := n) (a := a) hM0
  have p6 := BU_nonneg (n := n) (a := b) hM0
  have p7 : 0 ≤ LC := locC_nonneg nV N n a b c d hM0
  have hpow : h ^ (N - 1) ≤ h ^ (N - 2) := pow_le_pow_of_le_one h0.le h1 (by omega)
  have hpow0 : 0 ≤ h ^ (N - 2) := by positivity
  set r := S * (h ^ (N - 2) + ε) * Y with hr
  have hr0 : 0 ≤ r := by positivity
  have small : ∀ A B e f : ℝ, |A| ≤ e → |B| ≤ f → |(A * y 0 + B * dy 0) / D| ≤ (e + f) * Y := by
    intro A B e f hA hB
    rw [abs_div, abs_of_pos hD0, div_le_iff₀ hD0]
    have e0 : 0 ≤ e := (abs_nonneg _).trans hA
    have f0 : 0 ≤ f := (abs_nonneg _).trans hB
    have := abs_add_le (A * y 0) (B * dy 0)
    rw [abs_mul, abs_mul] at this
    have t1 := mul_le_mul hA hy0 (abs_nonneg _) e0
    have t2 := mul_le_mul hB hdy0 (abs_nonneg _) f0
    have t3 : (e + f) * Y ≤ (e + f) * Y * D := le_mul_of_one_le_right (by positivity) hD
    nlinarith
  have key := defect_bound (a := 0) (b := h) (K := K) (r := r) (q := fun x => V x - E)
    (u := fun x => -((UZ n a v h Z0 x * y 0 + UZ n b v h Z0 x * dy 0) / D) - z x)
    (du := fun x => -((UZd n a v h Z0 x * y 0 + UZd n b v h Z0 x * dy 0) / D) - dz x)
    (w := fun x => -((WZ n 1 c v h Z0 x * y 0 + WZ n 0 d v h Z0 x * dy 0) / D) - dz x)
    (dw := fun x => -((WZd n 1 c v h Z0 x * y 0 + WZd n 0 d v h Z0 x * dy 0) / D) - ((V x - E) * z x - y x)) (y := fun _ => 0) (dy := fun _ => 0)
    (by linarith) hr0 hq
    (fun x hx => ((((hasDerivAt_UZ v h Z0 x).mul_const _).add ((hasDerivAt_UZ v h Z0 x).mul_const _)).div_const _).fun_neg.hasDerivWithinAt.sub (hz.d1 x hx))
    (fun x hx => ((((hasDerivAt_WZ v h Z0 x).mul_const _).add ((hasDerivAt_WZ v h Z0 x).mul_const _)).div_const _).fun_neg.hasDerivWithinAt.sub (hz.d2 x hx))
    (fun x hx => by
      have e1 := boundZ1 C.ac (by omega) hM hv h0 h1 hE hx
      have e2 := boundZ1 C.bd (by omega) hM hv h0 h1 hE hx
      have := small _ _ _ _ e1 e2
      have e3 : -((UZd n a v h Z0 x * y 0 + UZd n b v h Z0 x * dy 0) / D) - dz x - (-((WZ n 1 c v h Z0 x * y 0 + WZ n 0 d v h Z0 x * dy 0) / D) - dz x) =
        -(((UZd n a v h Z0 x - WZ n 1 c v h Z0 x) * y 0 + (UZd n b v h Z0 x - WZ n 0 d v h Z0 x) * dy 0) / D) := by ring
      rw [e3, abs_neg]
      refine this.trans ?_
      rw [hr]
      refine mul_le_mul_of_nonneg_right ?_ hY0
      calc B1 N n a c M * h ^ (N - 1) + B1 N n b d M * h ^ (N - 1) ≤ (B1 N n a c M + B1 N n b d M) * h ^ (N - 2) := by nlinarith
        _ ≤ S * (h ^ (N - 2) + ε) :=
          mul_le_mul (by linarith) (by linarith) hpow0 (by linarith))
    (fun x hx => by
      have e1 := boundZ2 C.ac hN hM hv h0 h1 hE hx
      have e2 := boundZ2 C.bd hN hM hv h0 h1 hE hx
      have f1 := abs_UZ_le (n := n) C.a0 hM hv h0 h1 hE hx
      have f2 := abs_UZ_le (n := n) C.b0 hM hv h0 h1 hE hx
      have g := hV x hx
      have l := loc x hx
      set P := V x - (v 0 + dV nV v h x) with hP
      have e3 : -((WZd n 1 c v h Z0 x * y 0 + WZd n 0 d v h Z0 x * dy 0) / D) - ((V x - E) * z x - y x) -
          (V x - E) * (-((UZ n a v h Z0 x * y 0 + UZ n b v h Z0 x * dy 0) / D) - z x) =
        -((((WZd n 1 c v h Z0 x - (Uf n a v h Z0 x + (Z0 + dV nV v h x) * UZ n a v h Z0 x)) - P * UZ n a v h Z0 x) * y 0 +
          ((WZd n 0 d v h Z0 x - (Uf n b v h Z0 x + (Z0 + dV nV v h x) * UZ n b v h Z0 x)) - P * UZ n b v h Z0 x) * dy 0) / D) -
          ((Uf n a v h Z0 x * y 0 + Uf n b v h Z0 x * dy 0) / D - y x) := by
        rw [hP, hZ0]; ring
      rw [e3]
      have k1 : |(WZd n 1 c v h Z0 x - (Uf n a v h Z0 x + (Z0 + dV nV v h x) * UZ n a v h Z0 x)) - P * UZ n a v h Z0 x| ≤
          B2 nV N n a c M * h ^ (N - 2) + ε * BU n a M := by
        refine (abs_sub _ _).trans (add_le_add e1 ?_)
        rw [abs_mul]; exact mul_le_mul g f1 (abs_nonneg _) hε0
      have k2 : |(WZd n 0 d v h Z0 x - (Uf n b v h Z0 x + (Z0 + dV nV v h x) * UZ n b v h Z0 x)) - P * UZ n b v h Z0 x| ≤
          B2 nV N n b d M * h ^ (N - 2) + ε * BU n b M := by
        refine (abs_sub _ _).trans (add_le_add e2 ?_)
        rw [abs_mul]; exact mul_le_mul g f2 (abs_nonneg _) hε0
      have l2 : LC * (h ^ (N - 2) + ε) * x * Y ≤ LC * (h ^ (N - 2) + ε) * Y := by
        refine mul_le_mul_of_nonneg_right (mul_le_of_le_one_right (by positivity) (hx.2.trans h1)) hY0
      refine (abs_sub _ _).trans ?_
      rw [abs_neg]
      refine (add_le_add (small _ _ _ _ k1 k2) (l.trans l2)).trans ?_
      rw [hr, ← add_mul]
      refine mul_le_mul_of_nonneg_right ?_ hY0
      have q1 : 0 ≤ (B1 N n a c M + B1 N n b d M + BU n a M + BU n b M) * h ^ (N - 2) := by positivity
      have q2 : 0 ≤ (B1 N n a c M + B1 N n b d M + B2 nV N n a c M + B2 nV N n b d M) * ε := by positivity
      have q3 : S * (h ^ (N - 2) + ε) = (B2 nV N n a c M * h ^ (N - 2) + ε * BU n a M +
        (B2 nV N n b d M * h ^ (N - 2) + ε * BU n b M)) + LC * (h ^ (N - 2) + ε) +
        (B1 N n a c M + B1 N n b d M + BU n a M + BU n b M) * h ^ (N - 2) +
        (B1 N n a c M + B1 N n b d M + B2 nV N n a c M + B2 nV N n b d M) * ε := by rw [hS]; ring
      rw [q3]
      linarith only [q1, q2])
    (fun x _ => hasDerivWithinAt_const _ _ _) (fun x _ => by simpa using hasDerivWithinAt_const x (Set.Icc 0 h) (0 : ℝ))
    (by simp only [UZ_zero, z0]; simp)
    (by simp only [WZ_zero, dz0]; simp) hδ
  have fin : r * (δ - 0) * Real.exp (K * (δ - 0)) ≤ locZ nV N n a b c d M * (h ^ (N - 2) + ε) * δ * Y := by
    have e1 : Real.exp (K * (δ - 0)) ≤ Real.exp K := by
      apply Real.exp_le_exp.mpr
      have := hδ.2.trans h1
      have := hδ.1
      nlinarith
    have e2 : 0 ≤ r * (δ - 0) := by have := hδ.1; rw [sub_zero]; positivity
    calc _ ≤ r * (δ - 0) * Real.exp K := mul_le_mul_of_nonneg_left e1 e2
      _ = _ := by rw [hr, locZ]; ring
  simp only [sub_zero] at key fin
  exact ⟨key.1.trans fin, key.2.trans fin⟩

end Verif.PL
