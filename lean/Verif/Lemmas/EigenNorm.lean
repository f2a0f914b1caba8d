import Verif.Lemmas.EnergyGlue
import Verif.Lemmas.Sens

/-!
# The norm of a solution from its energy derivative

`(z y' - z' y)' = y²` when `z` is the energy derivative of `y`; dependence of solutions on the energy; the algebra of the normalisation.
-/
namespace Verif.Solver
open Verif.Mesh Verif.YT Verif.Spec

/-- The differentiated equation, in the sense of right derivatives. -/
structure EnergyR (q : ℝ → ℝ) (a b : ℝ) (y z dz : ℝ → ℝ) : Prop where
  c1 : ContinuousOn z (Set.Icc a b)
  c2 : ContinuousOn dz (Set.Icc a b)
  d1 : ∀ x ∈ Set.Ico a b, HasDerivWithinAt z (dz x) (Set.Ici x) x
  d2 : ∀ x ∈ Set.Ico a b, HasDerivWithinAt dz (q x * z x - y x) (Set.Ici x) x

theorem energyMesh_right {K : ℝ} {W : Sec ℝ → ℝ → ℝ} {E : ℝ} {y z dz : ℝ → ℝ} : ∀ {l : List (Sec ℝ)} {a b : ℝ}, OkMesh K W E a l b →
    EnergyMesh W E l y z dz → EnergyR (fun x => glue W l x - E) a b y z dz
  | [], a, b, h, _ => by
    have := h.chn
    simp only [Chn] at this
    subst this
    refine ⟨by simp, by simp, ?_, ?_⟩ <;> · intro x hx; simp at hx
  | s :: l, a, b, h, hs => by
    have e := h.chn.1
    subst e
    have hp := h.pos s (by simp)
    have s1 := hs s (by simp)
    have s2 := energyMesh_right h.tail (fun t ht => hs t (List.mem_cons_of_mem _ ht))
    have hb := (chn_range h.tail.chn h.tail.pos).1
    have eu : Set.Icc s.min b = Set.Icc s.min s.max ∪ Set.Icc s.max b := (Set.Icc_union_Icc_eq_Icc hp.le hb).symm
    have nh : ∀ x ∈ Set.Ico s.min s.max, Set.Icc s.min s.max ∈ nhdsWithin x (Set.Ici x) := fun x hx =>
      Filter.mem_of_superset (Icc_mem_nhdsGE hx.2) (Set.Icc_subset_Icc_left hx.1)
    refine ⟨?_, ?_, ?_, ?_⟩
    · rw [eu]
      exact ContinuousOn.union_of_isClosed (fun x hx => (s1.d1 x hx).continuousWithinAt) s2.c1 isClosed_Icc isClosed_Icc
    · rw [eu]
      exact ContinuousOn.union_of_isClosed (fun x hx => (s1.d2 x hx).continuousWithinAt) s2.c2 isClosed_Icc isClosed_Icc
    · intro x hx
      rcases lt_or_ge x s.max with q | q
      · exact (s1.d1 x ⟨hx.1, q.le⟩).mono_of_mem_nhdsWithin (nh x ⟨hx.1, q⟩)
      · exact s2.d1 x ⟨q, hx.2⟩
    · intro x hx
      rcases lt_or_ge x s.max with q | q
      · have : glue W (s :: l) x = W s x := if_pos q
        simp only [this]
        exact (s1.d2 x ⟨hx.1, q.le⟩).mono_of_mem_nhdsWithin (nh x ⟨hx.1, q⟩)
      · have : glue W (s :: l) x = glue W l x := if_neg (not_lt.mpr q)
        simp only [this]
        exact s2.d2 x ⟨q, hx.2⟩

/-- `(z y' - z' y)' = y²`. -/
theorem energy_integral {q : ℝ → ℝ} {a b : ℝ} {y dy z dz : ℝ → ℝ} (hy : SolvesR q a b y dy) (hz : EnergyR q a b y z dz) {x x' : ℝ} (h1 : a ≤ x) (h2 : x ≤ x') (h3 : x' ≤ b) :
    (z x' * dy x' - dz x' * y x') - (z x * dy x - dz x * y x) = ∫ t in x..x', y t * y t := by
  have sub : Set.Icc x x' ⊆ Set.Icc a b := Set.Icc_subset_Icc h1 h3
  have c1 := hy.c1.mono sub
  have c2 := hy.c2.mono sub
  have c3 := hz.c1.mono sub
  have c4 := hz.c2.mono sub
  exact (intervalIntegral.integral_eq_sub_of_hasDeriv_right_of_le (f := fun t => z t * dy t - dz t * y t) (f' := fun t => y t * y t) h2
    ((c3.mul c2).sub (c4.mul c1))
    (fun t ht => by
      have ht' : t ∈ Set.Ico a b := ⟨h1.trans ht.1.le, ht.2.trans_le h3⟩
      have h := ((hz.d1 t ht').mul (hy.d2 t ht')).sub ((hz.d2 t ht').mul (hy.d1 t ht'))
      exact (h.congr_deriv (by ring)).mono Set.Ioi_subset_Ici_self)
    ((ContinuousOn.intervalIntegrable (by rw [Set.uIcc_of_le h2]; exact c1.mul c1)))).symm

/-- Solutions of two energies with the same values at `x0`. -/
theorem mesh_two_energies {K : ℝ} (hK : 1 ≤ K) {W : Sec ℝ → ℝ → ℝ} {E F : ℝ} {y dy f df : ℝ → ℝ} {l : List (Sec ℝ)} {a b : ℝ} (h : OkMesh K W E a l b) (h' : OkMesh K W F a l b)
    (hy : SolvesMesh W E l y dy) (hf : SolvesMesh W F l f df) {x0 x : ℝ} (h0 : x0 ∈ Set.Icc a b) (hx : x ∈ Set.Icc a b) (i1 : f x0 = y x0) (i2 : df x0 = dy x0) :
    sz (f x - y x, df x - dy x) ≤ 2 * Real.exp (K * (b - a)) ^ 5 * (b - a) * |F - E| * sz (y x0, dy x0) := by
  obtain ⟨z, dz, hz, z1, z2⟩ := mesh_energy_exists_at h hy h0 (0, 0)
  exact (mesh_second hK h h' hy hf hz h0 hx i1 i2 z1 z2).1

/-- Squares of close functions have close integrals. -/
theorem integral_sq_near {f u : ℝ → ℝ} {a b c η : ℝ} (hab : a ≤ b) (cf : ContinuousOn f (Set.Icc a b)) (cu : ContinuousOn u (Set.Icc a b)) (hη : 0 ≤ η) (hηc : η ≤ c)
    (hu : ∀ x ∈ Set.Icc a b, |u x| ≤ c) (hf : ∀ x ∈ Set.Icc a b, |f x - u x| ≤ η) :
    |(∫ t in a..b, f t * f t) - ∫ t in a..b, u t * u t| ≤ 3 * c * η * (b - a) := by
  have i1 : IntervalIntegrable (fun t => f t * f t) MeasureTheory.volume a b :=
    ContinuousOn.intervalIntegrable (by rw [Set.uIcc_of_le hab]; exact cf.mul cf)
  have i2 : IntervalIntegrable (fun t => u t * u t) MeasureTheory.volume a b :=
    ContinuousOn.intervalIntegrable (by rw [Set.uIcc_of_le hab]; exact cu.mul cu)
  rw [← intervalIntegral.integral_sub i1 i2, ← Real.norm_eq_abs]
  have := intervalIntegral.norm_integral_le_of_norm_le_const (a := a) (b := b) (f := fun t => f t * f t - u t * u t) (C := 3 * c * η) (fun t ht => by
    rw [Set.uIoc_of_le hab] at ht
    have ht' : t ∈ Set.Icc a b := ⟨ht.1.le, ht.2⟩
    have h1 := hu t ht'
    have h2 := hf t ht'
    rw [Real.norm_eq_abs, show f t * f t - u t * u t = (f t - u t) * (f t - u t + 2 * u t) by ring, abs_mul]
    have h3 : |f t - u t + 2 * u t| ≤ 3 * c := by
      refine (abs_add_le _ _).trans ?_
      rw [abs_mul, abs_two]; linarith
    calc _ ≤ η * (3 * c) := mul_le_mul h2 h3 (abs_nonneg _) hη
      _ = 3 * c * η := by ring)
  rwa [abs_of_nonneg (by linarith : 0 ≤ b - a)] at this

end Verif.Solver
