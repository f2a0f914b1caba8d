import Verif.Spec.SturmLiouville
import Mathlib.Analysis.Calculus.Deriv.Inverse
import Mathlib.Analysis.Calculus.Deriv.MeanValue
import Mathlib.Analysis.Calculus.Deriv.Inv
import Mathlib.Topology.Order.IntermediateValue
import Mathlib.Analysis.SpecialFunctions.Sqrt
import Mathlib.MeasureTheory.Integral.IntervalIntegral.FundThmCalculus

/-!
# The exact Liouville transformation
-/
namespace Verif.Liouville
open Verif

variable {p q w X m m1 V : ℝ → ℝ} {a b : ℝ}

/-- The change of variable alone. -/
structure VarChange (p w : ℝ → ℝ) (a b : ℝ) (X : ℝ → ℝ) : Prop where
  lt : a < b
  p_pos : ∀ r ∈ Set.Icc a b, 0 < p r
  w_pos : ∀ r ∈ Set.Icc a b, 0 < w r
  dX : ∀ r ∈ Set.Icc a b, HasDerivWithinAt X (Real.sqrt (w r / p r)) (Set.Icc a b) r

theorem vc_mono (h : VarChange p w a b X) : StrictMonoOn X (Set.Icc a b) := by
  have hc : ContinuousOn X (Set.Icc a b) := fun r hr => (h.dX r hr).continuousWithinAt
  refine strictMonoOn_of_deriv_pos (convex_Icc a b) hc (fun r hr => ?_)
  rw [interior_Icc] at hr
  have hr' : r ∈ Set.Icc a b := ⟨hr.1.le, hr.2.le⟩
  rw [((h.dX r hr').hasDerivAt (Icc_mem_nhds hr.1 hr.2)).deriv]
  exact Real.sqrt_pos.mpr (div_pos (h.w_pos r hr') (h.p_pos r hr'))

theorem vc_maps (h : VarChange p w a b X) : Set.MapsTo X (Set.Icc a b) (Set.Icc (X a) (X b)) := fun r hr =>
  ⟨(vc_mono h).monotoneOn ⟨le_rfl, h.lt.le⟩ hr hr.1, (vc_mono h).monotoneOn hr ⟨h.lt.le, le_rfl⟩ hr.2⟩

theorem vc_surj (h : VarChange p w a b X) : Set.SurjOn X (Set.Icc a b) (Set.Icc (X a) (X b)) :=
  intermediate_value_Icc h.lt.le (fun r hr => (h.dX r hr).continuousWithinAt)

/-- The inverse of the change of variable, with its derivative. -/
theorem vc_inverse (h : VarChange p w a b X) : ∃ G : ℝ → ℝ, Set.MapsTo G (Set.Icc (X a) (X b)) (Set.Icc a b) ∧
    (∀ x ∈ Set.Icc (X a) (X b), X (G x) = x) ∧ (∀ r ∈ Set.Icc a b, G (X r) = r) ∧
    ∀ x ∈ Set.Icc (X a) (X b), HasDerivWithinAt G (Real.sqrt (w (G x) / p (G x)))⁻¹ (Set.Icc (X a) (X b)) x := by
  have hm := vc_mono h
  have hs := vc_surj h
  let G := Function.invFunOn X (Set.Icc a b)
  have h1 : ∀ x ∈ Set.Icc (X a) (X b), G x ∈ Set.Icc a b ∧ X (G x) = x := fun x hx => ⟨Function.invFunOn_mem (hs hx), Function.invFunOn_eq (hs hx)⟩
  have h2 : ∀ r ∈ Set.Icc a b, G (X r) = r := fun r hr => hm.injOn ((h1 _ (vc_maps h hr)).1) hr (h1 _ (vc_maps h hr)).2
  refine ⟨G, fun x hx => (h1 x hx).1, fun x hx => (h1 x hx).2, h2, fun x hx => ?_⟩
  have hGm : StrictMonoOn G (Set.Icc (X a) (X b)) := fun x hx y hy hxy => by
    by_contra hc
    have := hm.monotoneOn (h1 y hy).1 (h1 x hx).1 (not_lt.mp hc)
    rw [(h1 x hx).2, (h1 y hy).2] at this
    linarith
  have hGs : Set.SurjOn G (Set.Icc (X a) (X b)) (Set.Icc a b) := fun r hr => ⟨X r, vc_maps h hr, h2 r hr⟩
  have hGc : ContinuousOn G (Set.Icc (X a) (X b)) := by
    rw [continuousOn_iff_continuous_domRestrict]
    let g : Set.Icc (X a) (X b) → Set.Icc a b := fun x => ⟨G x, (h1 x x.2).1⟩
    have gm : Monotone g := fun x y hxy => hGm.monotoneOn x.2 y.2 hxy
    have gs : Function.Surjective g := fun r => ⟨⟨X r, vc_maps h r.2⟩, Subtype.ext (h2 r r.2)⟩
    exact continuous_subtype_val.comp (gm.continuous_of_surjective gs)
  have hf := h.dX (G x) (h1 x hx).1
  have hd : Real.sqrt (w (G x) / p (G x)) ≠ 0 := (Real.sqrt_pos.mpr (div_pos (h.w_pos _ (h1 x hx).1) (h.p_pos _ (h1 x hx).1))).ne'
  have hf' : HasFDerivWithinAt X (ContinuousLinearEquiv.unitsEquivAut ℝ (Units.mk0 _ hd) : ℝ →L[ℝ] ℝ) (Set.Icc a b) (G x) := hf
  exact HasFDerivWithinAt.of_local_left_inverse ((hGc x hx).tendsto_nhdsWithin (fun y hy => (h1 y hy).1)) hf' hx
    (Filter.eventually_of_mem self_mem_nhdsWithin (fun y hy => (h1 y hy).2))

theorem NormalForm.vc (h : NormalForm p q w a b X m m1 V) : VarChange p w a b X := ⟨h.lt, h.p_pos, h.w_pos, h.dX⟩

theorem nf_mono (h : NormalForm p q w a b X m m1 V) : StrictMonoOn X (Set.Icc a b) := vc_mono (NormalForm.vc h)

theorem nf_maps (h : NormalForm p q w a b X m m1 V) : Set.MapsTo X (Set.Icc a b) (Set.Icc (X a) (X b)) := vc_maps (NormalForm.vc h)

theorem nf_surj (h : NormalForm p q w a b X m m1 V) : Set.SurjOn X (Set.Icc a b) (Set.Icc (X a) (X b)) := vc_surj (NormalForm.vc h)

theorem nf_inverse (h : NormalForm p q w a b X m m1 V) : ∃ G : ℝ → ℝ, Set.MapsTo G (Set.Icc (X a) (X b)) (Set.Icc a b) ∧
    (∀ x ∈ Set.Icc (X a) (X b), X (G x) = x) ∧ (∀ r ∈ Set.Icc a b, G (X r) = r) ∧
    ∀ x ∈ Set.Icc (X a) (X b), HasDerivWithinAt G (Real.sqrt (w (G x) / p (G x)))⁻¹ (Set.Icc (X a) (X b)) x := vc_inverse (NormalForm.vc h)

/-- `sqrt(w/p) p = m²` and `sqrt(w/p) m² = w`. -/
theorem nf_sqrt (h : NormalForm p q w a b X m m1 V) {r : ℝ} (hr : r ∈ Set.Icc a b) :
    0 < Real.sqrt (w r / p r) ∧ Real.sqrt (w r / p r) * p r = m (X r) ^ 2 ∧ Real.sqrt (w r / p r) * m (X r) ^ 2 = w r := by
  have h1 := h.p_pos r hr
  have h2 := h.w_pos r hr
  have h3 := h.m_pos r hr
  have h4 := h.fourth r hr
  have e : Real.sqrt (w r / p r) = m (X r) ^ 2 / p r := by
    rw [Real.sqrt_eq_iff_mul_self_eq (by positivity) (by positivity)]
    field_simp
    linear_combination (-1 : ℝ) * h4
  refine ⟨Real.sqrt_pos.mpr (div_pos h2 h1), ?_, ?_⟩
  · rw [e]; field_simp
  · rw [e]; field_simp; linear_combination h4

/-- A solution of the Schrödinger equation gives one of the Sturm–Liouville equation. -/
theorem nf_toSL (h : NormalForm p q w a b X m m1 V) {E : ℝ} {y dy : ℝ → ℝ} (hy : SolvesOn V E (X a) (X b) y dy) :
    SLSolvesOn p q w E a b (fun r => y (X r) / m (X r)) (fun r => Real.sqrt (w r / p r) * ((dy (X r) * m (X r) - y (X r) * m1 (X r)) / m (X r) ^ 2)) := by
  have hm := nf_maps h
  constructor
  · intro r hr
    have d1 := (hy.d1 _ (hm hr)).comp r (h.dX r hr) hm
    have d2 := (h.dm _ (hm hr)).comp r (h.dX r hr) hm
    refine (d1.div d2 (h.m_pos r hr).ne').congr_deriv ?_
    have := (h.m_pos r hr).ne'
    simp only [Function.comp]
    field_simp
  · intro r hr
    have d1 := (hy.d1 _ (hm hr)).comp r (h.dX r hr) hm
    have d2 := (h.dm _ (hm hr)).comp r (h.dX r hr) hm
    have d3 := (hy.d2 _ (hm hr)).comp r (h.dX r hr) hm
    have d4 := (h.ddm r hr).comp r (h.dX r hr) hm
    have e : ∀ s ∈ Set.Icc a b, p s * (Real.sqrt (w s / p s) * ((dy (X s) * m (X s) - y (X s) * m1 (X s)) / m (X s) ^ 2)) =
        dy (X s) * m (X s) - y (X s) * m1 (X s) := by
      intro s hs
      have h1 := (nf_sqrt h hs).2.1
      have h2 := (h.m_pos s hs).ne'
      rw [← mul_assoc, mul_comm (p s), h1]
      field_simp
    refine HasDerivWithinAt.congr (((d3.mul d2).sub (d1.mul d4)).congr_deriv ?_) e (e r hr)
    simp only [Function.comp]
    obtain ⟨-, -, h2⟩ := nf_sqrt h hr
    have h3 := (h.m_pos r hr).ne'
    have h4 := (h.w_pos r hr).ne'
    have : (q r - E * w r) * (y (X r) / m (X r)) = (q r / w r - E) * y (X r) * (w r / m (X r)) := by field_simp
    rw [this, ← h2]
    rw [show Real.sqrt (w r / p r) * m (X r) ^ 2 / m (X r) = Real.sqrt (w r / p r) * m (X r) by field_simp]
    rw [h2]
    ring

/-- A solution of the Sturm–Liouville equation gives one of the Schrödinger equation. -/
theorem nf_fromSL (h : NormalForm p q w a b X m m1 V) {G : ℝ → ℝ} (g1 : Set.MapsTo G (Set.Icc (X a) (X b)) (Set.Icc a b))
    (g2 : ∀ x ∈ Set.Icc (X a) (X b), X (G x) = x)
    (g3 : ∀ x ∈ Set.Icc (X a) (X b), HasDerivWithinAt G (Real.sqrt (w (G x) / p (G x)))⁻¹ (Set.Icc (X a) (X b)) x) {E : ℝ} {z dz : ℝ → ℝ}
    (hz : SLSolvesOn p q w E a b z dz) :
    SolvesOn V E (X a) (X b) (fun x => m x * z (G x)) (fun x => m1 x * z (G x) + p (G x) * dz (G x) / m x) := by
  have hmp : ∀ x ∈ Set.Icc (X a) (X b), 0 < m x := fun x hx => by have := h.m_pos _ (g1 hx); rwa [g2 x hx] at this
  constructor
  · intro x hx
    have d1 := (hz.d1 _ (g1 hx)).comp x (g3 x hx) g1
    refine ((h.dm x hx).mul d1).congr_deriv ?_
    obtain ⟨s0, h1, h2⟩ := nf_sqrt h (g1 hx)
    rw [g2 x hx] at h1
    have h3 := (hmp x hx).ne'
    simp only [Function.comp]
    have s1 := s0.ne'
    have hs : p (G x) / m x = m x * (Real.sqrt (w (G x) / p (G x)))⁻¹ := by
      rw [← div_eq_mul_inv, div_eq_div_iff h3 s1]; linarith
    rw [mul_div_right_comm, hs]
    ring
  · intro x hx
    have d1 := (hz.d1 _ (g1 hx)).comp x (g3 x hx) g1
    have d2 := (hz.d2 _ (g1 hx)).comp x (g3 x hx) g1
    have d3 := h.ddm _ (g1 hx)
    rw [g2 x hx] at d3
    refine ((d3.mul d1).add (d2.div (h.dm x hx) (hmp x hx).ne')).congr_deriv ?_
    obtain ⟨s0, h1, h2⟩ := nf_sqrt h (g1 hx)
    rw [g2 x hx] at h1 h2
    have h3 := (hmp x hx).ne'
    have h4 := (h.w_pos _ (g1 hx)).ne'
    simp only [Function.comp]
    have s1 := s0.ne'
    have hs : p (G x) = m x ^ 2 * (Real.sqrt (w (G x) / p (G x)))⁻¹ := by
      rw [← div_eq_mul_inv, eq_div_iff s1]; linarith
    have hw : (Real.sqrt (w (G x) / p (G x)))⁻¹ = m x ^ 2 / w (G x) := by
      rw [eq_div_iff h4, inv_mul_eq_iff_eq_mul₀ s1]; exact h2.symm
    rw [hw] at hs ⊢
    rw [hs]
    field_simp
    ring

/-- Zero sets. -/
theorem nf_zeros (h : NormalForm p q w a b X m m1 V) {y z : ℝ → ℝ} (hyz : ∀ r ∈ Set.Icc a b, y (X r) = m (X r) * z r) :
    ({x ∈ Set.Ioo (X a) (X b) | y x = 0} : Set ℝ) = X '' {r ∈ Set.Ioo a b | z r = 0} := by
  have hm := nf_mono h
  have ha : a ∈ Set.Icc a b := ⟨le_rfl, h.lt.le⟩
  have hb : b ∈ Set.Icc a b := ⟨h.lt.le, le_rfl⟩
  ext x
  constructor
  · rintro ⟨⟨h1, h2⟩, h3⟩
    obtain ⟨r, hr, rfl⟩ := nf_surj h ⟨h1.le, h2.le⟩
    refine ⟨r, ⟨⟨(hm.lt_iff_lt ha hr).mp h1, (hm.lt_iff_lt hr hb).mp h2⟩, ?_⟩, rfl⟩
    rw [hyz r hr] at h3
    exact (mul_eq_zero.mp h3).resolve_left (h.m_pos r hr).ne'
  · rintro ⟨r, ⟨⟨h1, h2⟩, h3⟩, rfl⟩
    have hr : r ∈ Set.Icc a b := ⟨h1.le, h2.le⟩
    exact ⟨⟨hm ha hr h1, hm hr hb h2⟩, by rw [hyz r hr, h3, mul_zero]⟩

/-- The boundary condition at `r`. -/
theorem nf_boundary (h : NormalForm p q w a b X m m1 V) {r : ℝ} (hr : r ∈ Set.Icc a b) (L : ℝ × ℝ) {y dy z dz : ℝ} (h1 : y = m (X r) * z)
    (h2 : dy = m1 (X r) * z + m (X r) * (dz / Real.sqrt (w r / p r))) :
    y * (normalValues p w X m m1 r L).2 = dy * (normalValues p w X m m1 r L).1 ↔ z * L.2 = dz * L.1 := by
  have h3 := (h.m_pos r hr).ne'
  have h4 := (nf_sqrt h hr).1.ne'
  unfold normalValues
  simp only
  have e : y * (m1 (X r) * L.1 + m (X r) * (L.2 / Real.sqrt (w r / p r))) - dy * (m (X r) * L.1) = m (X r) ^ 2 / Real.sqrt (w r / p r) * (z * L.2 - dz * L.1) := by
    rw [h1, h2]; ring
  have c : m (X r) ^ 2 / Real.sqrt (w r / p r) ≠ 0 := div_ne_zero (pow_ne_zero _ h3) h4
  constructor
  · intro hh
    rw [hh, sub_self, eq_comm, mul_eq_zero] at e
    exact sub_eq_zero.mp (e.resolve_left c)
  · intro hh
    rw [hh, sub_self, mul_zero] at e
    exact sub_eq_zero.mp e

/-- The change of variable exists. -/
theorem vc_exists (hab : a < b) (hp : ∀ r ∈ Set.Icc a b, 0 < p r) (hw : ∀ r ∈ Set.Icc a b, 0 < w r) (cp : ContinuousOn p (Set.Icc a b)) (cw : ContinuousOn w (Set.Icc a b)) :
    ∃ X : ℝ → ℝ, X a = 0 ∧ VarChange p w a b X := by
  have hc : ContinuousOn (fun r => Real.sqrt (w r / p r)) (Set.Icc a b) := (cw.div cp (fun r hr => (hp r hr).ne')).sqrt
  have hi : IntervalIntegrable (fun r => Real.sqrt (w r / p r)) MeasureTheory.volume a b := hc.intervalIntegrable_of_Icc hab.le
  refine ⟨fun r => ∫ t in a..r, Real.sqrt (w t / p t), intervalIntegral.integral_same, hab, hp, hw, fun r hr => ?_⟩
  have hI : Set.uIcc a b = Set.Icc a b := Set.uIcc_of_le hab.le
  have : Fact (r ∈ Set.Icc a b) := ⟨hr⟩
  exact intervalIntegral.integral_hasDerivWithinAt_right (hi.mono_set (by rw [hI, Set.uIcc_of_le hr.1]; exact Set.Icc_subset_Icc le_rfl hr.2))
    (hc.stronglyMeasurableAtFilter_nhdsWithin measurableSet_Icc r) (hc r hr)

/-- The normal form exists when the coefficients have two derivatives. -/
theorem nf_exists (q : ℝ → ℝ) {dp ddp dw ddw : ℝ → ℝ} (hab : a < b) (hp : ∀ r ∈ Set.Icc a b, 0 < p r) (hw : ∀ r ∈ Set.Icc a b, 0 < w r)
    (p1 : ∀ r ∈ Set.Icc a b, HasDerivWithinAt p (dp r) (Set.Icc a b) r) (p2 : ∀ r ∈ Set.Icc a b, HasDerivWithinAt dp (ddp r) (Set.Icc a b) r)
    (w1 : ∀ r ∈ Set.Icc a b, HasDerivWithinAt w (dw r) (Set.Icc a b) r) (w2 : ∀ r ∈ Set.Icc a b, HasDerivWithinAt dw (ddw r) (Set.Icc a b) r) :
    ∃ X m m1 V : ℝ → ℝ, X a = 0 ∧ NormalForm p q w a b X m m1 V := by
  obtain ⟨X, X0, hX⟩ := vc_exists hab hp hw (fun r hr => (p1 r hr).continuousWithinAt) (fun r hr => (w1 r hr).continuousWithinAt)
  obtain ⟨G, g1, g2, g3, g4⟩ := vc_inverse hX
  let μ : ℝ → ℝ := fun r => Real.sqrt (Real.sqrt (p r * w r))
  have μ0 : ∀ r ∈ Set.Icc a b, 0 < μ r := fun r hr => Real.sqrt_pos.mpr (Real.sqrt_pos.mpr (mul_pos (hp r hr) (hw r hr)))
  have μ4 : ∀ r ∈ Set.Icc a b, μ r ^ 4 = p r * w r := fun r hr => by
    have h1 := mul_pos (hp r hr) (hw r hr)
    have : μ r ^ 4 = (μ r ^ 2) ^ 2 := by ring
    rw [this, Real.sq_sqrt (Real.sqrt_nonneg _), Real.sq_sqrt h1.le]
  let μ1 : ℝ → ℝ := fun r => μ r * (dp r / p r + dw r / w r) / 4
  have dμ : ∀ r ∈ Set.Icc a b, HasDerivWithinAt μ (μ1 r) (Set.Icc a b) r := by
    intro r hr
    have h1 := mul_pos (hp r hr) (hw r hr)
    have d := (((p1 r hr).mul (w1 r hr)).sqrt h1.ne').sqrt (Real.sqrt_pos.mpr h1).ne'
    refine d.congr_deriv ?_
    change (dp r * w r + p r * dw r) / (2 * Real.sqrt (p r * w r)) / (2 * μ r) = μ r * (dp r / p r + dw r / w r) / 4
    have e1 : Real.sqrt (p r * w r) = μ r ^ 2 := (Real.sq_sqrt (Real.sqrt_nonneg _)).symm
    have e2 := μ4 r hr
    have e3 := (μ0 r hr).ne'
    have e4 := (hp r hr).ne'
    have e5 := (hw r hr).ne'
    rw [e1, div_div, div_eq_iff (by positivity)]
    have : dp r / p r + dw r / w r = (dp r * w r + p r * dw r) / μ r ^ 4 := by rw [e2]; field_simp
    rw [this]
    field_simp
    ring
  let ρ : ℝ → ℝ := fun r => μ1 r / Real.sqrt (w r / p r)
  have dρ : ∀ r ∈ Set.Icc a b, HasDerivWithinAt ρ (derivWithin ρ (Set.Icc a b) r) (Set.Icc a b) r := by
    intro r hr
    refine DifferentiableWithinAt.hasDerivWithinAt ?_
    have e4 := (hp r hr).ne'
    have e5 := (hw r hr).ne'
    have e6 : 0 < w r / p r := div_pos (hw r hr) (hp r hr)
    have q1 := (((dμ r hr).mul (((p2 r hr).div (p1 r hr) e4).add ((w2 r hr).div (w1 r hr) e5))).div_const 4).differentiableWithinAt
    have q2 := (((w1 r hr).div (p1 r hr) e4).sqrt e6.ne').differentiableWithinAt
    exact q1.div q2 (Real.sqrt_pos.mpr e6).ne'
  refine ⟨X, fun x => μ (G x), fun x => ρ (G x), fun x => q (G x) / w (G x) + derivWithin ρ (Set.Icc a b) (G x) / (Real.sqrt (w (G x) / p (G x)) * μ (G x)), X0,
    hab, hp, hw, hX.dX, ?_, ?_, ?_, ?_⟩
  · intro r hr; change 0 < μ (G (X r)); rw [g3 r hr]; exact μ0 r hr
  · intro r hr; change μ (G (X r)) ^ 4 = _; rw [g3 r hr]; exact μ4 r hr
  · intro x hx
    exact ((dμ _ (g1 hx)).comp x (g4 x hx) g1)
  · intro r hr
    have hx := vc_maps hX hr
    refine ((dρ _ (g1 hx)).comp (X r) (g4 _ hx) g1).congr_deriv ?_
    simp only [g3 r hr]
    have e6 : 0 < w r / p r := div_pos (hw r hr) (hp r hr)
    have e7 := (Real.sqrt_pos.mpr e6).ne'
    have e8 := (μ0 r hr).ne'
    field_simp
    ring

end Verif.Liouville
