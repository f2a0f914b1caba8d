import Verif.Lemmas.Ode
import Mathlib.Analysis.ODE.ExistUnique
import Mathlib.Analysis.Calculus.MeanValue

/-!
# Existence of solutions, the Wronskian, reflection
-/
namespace Verif

/-- cut a value to `[-R, R]` -/
noncomputable def clip (R x : ℝ) : ℝ := max (min x R) (-R)

theorem clip_lip (R x y : ℝ) : |clip R x - clip R y| ≤ |x - y| := by
  unfold clip
  refine (abs_max_sub_max_le_abs _ _ _).trans ?_
  have := abs_min_sub_min_le_max x R y R
  simpa using this

theorem clip_le {R : ℝ} (hR : 0 ≤ R) (x : ℝ) : |clip R x| ≤ R := by
  unfold clip
  rw [abs_le]
  exact ⟨le_max_right _ _, max_le (min_le_right _ _) (by linarith)⟩

theorem clip_abs {R : ℝ} (hR : 0 ≤ R) (x : ℝ) : |clip R x| ≤ |x| := by
  have := clip_lip R x 0
  have h0 : clip R 0 = 0 := by unfold clip; rw [min_eq_left hR, max_eq_left (by linarith)]
  simpa [h0] using this

theorem clip_eq {R x : ℝ} (h : |x| ≤ R) : clip R x = x := by
  unfold clip
  rw [abs_le] at h
  rw [min_eq_left h.2, max_eq_left h.1]

/-- The initial value problem for `y'' = (V - E) y` with continuous `V` has a solution on all of `[a, b]`. -/
theorem exists_solution {V : ℝ → ℝ} {E a b : ℝ} (hab : a ≤ b) (hV : ContinuousOn V (Set.Icc a b)) (y0 dy0 : ℝ) :
    ∃ y dy : ℝ → ℝ, SolvesOn V E a b y dy ∧ y a = y0 ∧ dy a = dy0 := by
  obtain ⟨K0, hK0⟩ := isCompact_Icc.exists_bound_of_continuousOn (hV.sub (continuousOn_const (c := E)))
  simp only [Real.norm_eq_abs] at hK0
  set K := max K0 1 with hKdef
  have hK1 : 1 ≤ K := le_max_right _ _
  have hK : ∀ x ∈ Set.Icc a b, |V x - E| ≤ K := fun x hx => (hK0 x hx).trans (le_max_left _ _)
  have hKp : 0 ≤ K := by linarith
  set R := max |y0| |dy0| * Real.exp (K * (b - a)) with hR
  have hR0 : 0 ≤ R := by positivity
  set f : ℝ → ℝ × ℝ → ℝ × ℝ := fun t p => (clip R p.2, (V t - E) * clip R p.1) with hf
  have hL0 : 0 ≤ K * R := by positivity
  have pl : IsPicardLindelof f (tmin := a) (tmax := b) ⟨a, le_rfl, hab⟩ (y0, dy0) ⟨K * R * (b - a), mul_nonneg hL0 (by linarith)⟩ 0 ⟨K * R, hL0⟩ ⟨K, hKp⟩ := by
    constructor
    · intro t ht
      apply LipschitzWith.lipschitzOnWith
      refine LipschitzWith.of_dist_le_mul (fun p p' => ?_)
      rw [Prod.dist_eq, Prod.dist_eq]
      simp only [Real.dist_eq, NNReal.coe_mk, hf]
      have m0 : 0 ≤ max |p.1 - p'.1| |p.2 - p'.2| := le_max_of_le_left (abs_nonneg _)
      change _ ≤ K * _
      refine max_le ?_ ?_
      · refine (clip_lip R _ _).trans ((le_max_right |p.1 - p'.1| _).trans ?_)
        nlinarith
      · rw [← mul_sub, abs_mul]
        exact mul_le_mul (hK t ht) ((clip_lip R _ _).trans (le_max_left _ _)) (abs_nonneg _) hKp
    · intro x _
      simp only [hf]
      exact continuousOn_const.prodMk ((hV.sub continuousOn_const).mul continuousOn_const)
    · intro t ht x _
      simp only [hf, Prod.norm_def, Real.norm_eq_abs]
      change _ ≤ K * R
      refine max_le ?_ ?_
      · have := clip_le hR0 x.2
        nlinarith
      · rw [abs_mul]
        exact mul_le_mul (hK t ht) (clip_le hR0 _) (abs_nonneg _) hKp
    · change K * R * max (b - a) (a - a) ≤ K * R * (b - a) - 0
      rw [max_eq_left (by linarith), sub_zero]
  obtain ⟨α, hα0, hα⟩ := pl.exists_eq_forall_mem_Icc_hasDerivWithinAt₀
  have sub : ∀ t ∈ Set.Ico a b, t ∈ Set.Icc a b := fun t ht => ⟨ht.1, ht.2.le⟩
  have bound := norm_le_gronwallBound_of_norm_deriv_right_le (f := α) (f' := fun t => f t (α t)) (δ := max |y0| |dy0|) (K := K) (ε := 0) (a := a) (b := b)
    (fun t ht => (hα t ht).continuousWithinAt)
    (fun t ht => ((hα t (sub t ht)).mono (Set.Icc_subset_Icc_left ht.1)).mono_of_mem_nhdsWithin (Icc_mem_nhdsGE ht.2))
    (by simp only at hα0; rw [hα0]; simp [Prod.norm_def])
    (fun t ht => by
      simp only [hf, Prod.norm_def, Real.norm_eq_abs, add_zero]
      have m0 : 0 ≤ max |(α t).1| |(α t).2| := le_max_of_le_left (abs_nonneg _)
      refine max_le ?_ ?_
      · refine (clip_abs hR0 _).trans ((le_max_right |(α t).1| _).trans ?_)
        nlinarith
      · rw [abs_mul]
        exact mul_le_mul (hK t (sub t ht)) ((clip_abs hR0 _).trans (le_max_left _ _)) (abs_nonneg _) hKp)
  have inR : ∀ t ∈ Set.Icc a b, |(α t).1| ≤ R ∧ |(α t).2| ≤ R := by
    intro t ht
    have h1 := bound t ht
    rw [gronwallBound_ε0] at h1
    have h2 : max |y0| |dy0| * Real.exp (K * (t - a)) ≤ R := by
      rw [hR]
      refine mul_le_mul_of_nonneg_left (Real.exp_le_exp.mpr ?_) (le_max_of_le_left (abs_nonneg _))
      have := ht.2
      nlinarith
    have h3 := h1.trans h2
    rw [Prod.norm_def, Real.norm_eq_abs, Real.norm_eq_abs] at h3
    exact ⟨(le_max_left _ _).trans h3, (le_max_right _ _).trans h3⟩
  refine ⟨fun t => (α t).1, fun t => (α t).2, ⟨fun t ht => ?_, fun t ht => ?_⟩, ?_, ?_⟩
  · have h := (hα t ht).fst
    simp only [hf] at h
    rwa [clip_eq (inR t ht).2] at h
  · have h := (hα t ht).snd
    simp only [hf] at h
    rwa [clip_eq (inR t ht).1] at h
  · simp only at hα0 ⊢; rw [hα0]
  · simp only at hα0 ⊢; rw [hα0]

/-- The Wronskian of two solutions is constant. -/
theorem wronskian_const {V : ℝ → ℝ} {E a b : ℝ} {y dy z dz : ℝ → ℝ} (hy : SolvesOn V E a b y dy) (hz : SolvesOn V E a b z dz)
    {x : ℝ} (hx : x ∈ Set.Icc a b) : y x * dz x - dy x * z x = y a * dz a - dy a * z a := by
  have key := constant_of_has_deriv_right_zero (f := fun x => y x * dz x - dy x * z x) (a := a) (b := b)
    (fun t ht => (((hy.d1 t ht).mul (hz.d2 t ht)).sub ((hy.d2 t ht).mul (hz.d1 t ht))).continuousWithinAt)
    (fun t ht => by
      have ht' : t ∈ Set.Icc a b := ⟨ht.1, ht.2.le⟩
      have h := ((hy.d1 t ht').mul (hz.d2 t ht')).sub ((hy.d2 t ht').mul (hz.d1 t ht'))
      exact (deriv_right ht h).congr_deriv (by ring))
  exact key x hx

/-- Restriction to a smaller interval. -/
theorem SolvesOn.mono {V : ℝ → ℝ} {E a b c d : ℝ} {y dy : ℝ → ℝ} (h : SolvesOn V E a b y dy) (hc : a ≤ c) (hd : d ≤ b) :
    SolvesOn V E c d y dy :=
  ⟨fun x hx => (h.d1 x ⟨hc.trans hx.1, hx.2.trans hd⟩).mono (Set.Icc_subset_Icc hc hd),
    fun x hx => (h.d2 x ⟨hc.trans hx.1, hx.2.trans hd⟩).mono (Set.Icc_subset_Icc hc hd)⟩

/-- Translation to `[0, b - a]`. -/
theorem SolvesOn.shift {V : ℝ → ℝ} {E a b : ℝ} {y dy : ℝ → ℝ} (h : SolvesOn V E a b y dy) :
    SolvesOn (fun x => V (a + x)) E 0 (b - a) (fun x => y (a + x)) (fun x => dy (a + x)) := by
  have hm : Set.MapsTo (fun x => a + x) (Set.Icc 0 (b - a)) (Set.Icc a b) := fun x hx => ⟨by linarith [hx.1], by linarith [hx.2]⟩
  have hd : ∀ x, HasDerivWithinAt (fun x => a + x) 1 (Set.Icc 0 (b - a)) x := fun x => ((hasDerivAt_id x).const_add a).hasDerivWithinAt
  constructor
  · intro x hx
    exact ((h.d1 (a + x) (hm hx)).comp x (hd x) hm).congr_deriv (by ring)
  · intro x hx
    exact ((h.d2 (a + x) (hm hx)).comp x (hd x) hm).congr_deriv (by ring)

/-- Reflection to `[0, b - a]`: `x ↦ b - x`. -/
theorem SolvesOn.reflect {V : ℝ → ℝ} {E a b : ℝ} {y dy : ℝ → ℝ} (h : SolvesOn V E a b y dy) :
    SolvesOn (fun x => V (b - x)) E 0 (b - a) (fun x => y (b - x)) (fun x => -dy (b - x)) := by
  have hm : Set.MapsTo (fun x => b - x) (Set.Icc 0 (b - a)) (Set.Icc a b) := fun x hx => ⟨by linarith [hx.2], by linarith [hx.1]⟩
  have hd : ∀ x, HasDerivWithinAt (fun x => b - x) (-1) (Set.Icc 0 (b - a)) x := fun x => ((hasDerivAt_id x).const_sub b).hasDerivWithinAt
  constructor
  · intro x hx
    exact ((h.d1 (b - x) (hm hx)).comp x (hd x) hm).congr_deriv (by ring)
  · intro x hx
    exact (((h.d2 (b - x) (hm hx)).comp x (hd x) hm).neg).congr_deriv (by ring)

end Verif
