import Verif.Props.Prufer
import Mathlib.Topology.Covering.AddCircle
import Mathlib.Topology.Homotopy.Lifting
import Mathlib.Analysis.SpecialFunctions.Complex.CircleAddChar
import Mathlib.Analysis.Calculus.MeanValue
import Mathlib.Analysis.Calculus.Deriv.MeanValue
import Mathlib.Topology.Order.IntermediateValue

/-!
# Continuous angles of solutions of `y'' = q y`
-/
namespace Verif.Prufer
open Real (pi sin cos)
open Set (Icc Ioo Ioc Ico Ioi Iio)

theorem IsAngle.rep {θ u v : ℝ} (h : IsAngle θ u v) : ∃ ρ : ℝ, u = ρ * sin θ ∧ v = ρ * cos θ := by
  have hsc := Real.sin_sq_add_cos_sq θ
  unfold IsAngle at h
  refine ⟨u * sin θ + v * cos θ, ?_, ?_⟩
  · linear_combination (-u) * hsc + cos θ * h
  · linear_combination (-v) * hsc - sin θ * h

theorem IsAngle.sin_eq_zero {θ u v : ℝ} (h : IsAngle θ u v) (hne : ¬ (u = 0 ∧ v = 0)) : sin θ = 0 ↔ u = 0 := by
  obtain ⟨ρ, h1, h2⟩ := h.rep
  have hρ : ρ ≠ 0 := by rintro rfl; exact hne ⟨by rw [h1]; ring, by rw [h2]; ring⟩
  rw [h1]; simp [hρ]

theorem IsAngle.cos_eq_zero {θ u v : ℝ} (h : IsAngle θ u v) (hne : ¬ (u = 0 ∧ v = 0)) : cos θ = 0 ↔ v = 0 := by
  obtain ⟨ρ, h1, h2⟩ := h.rep
  have hρ : ρ ≠ 0 := by rintro rfl; exact hne ⟨by rw [h1]; ring, by rw [h2]; ring⟩
  rw [h2]; simp [hρ]

/-- A continuous function avoiding the multiples of π stays between two of them. -/
theorem floor_const {S : Set ℝ} (hS : IsPreconnected S) {f : ℝ → ℝ} (hf : ContinuousOn f S)
    (h : ∀ x ∈ S, sin (f x) ≠ 0) {x y : ℝ} (hx : x ∈ S) (hy : y ∈ S) : ⌊f x / pi⌋ = ⌊f y / pi⌋ := by
  have hp := Real.pi_pos
  have key : ∀ x ∈ S, ∀ y ∈ S, ⌊f y / pi⌋ ≤ ⌊f x / pi⌋ := by
    intro x hx y hy
    by_contra hc
    push Not at hc
    have h1 : f x / pi < (⌊f y / pi⌋ : ℝ) := Int.floor_lt.mp hc
    have h2 := Int.floor_le (f y / pi)
    rw [div_lt_iff₀ hp] at h1
    rw [le_div_iff₀ hp] at h2
    obtain ⟨z, hz, e⟩ := hS.intermediate_value hx hy hf ⟨h1.le, h2⟩
    exact h z hz (by rw [e]; exact Real.sin_int_mul_pi _)
  exact le_antisymm (key y hy x hx) (key x hx y hy)

/-- Two continuous angles of the same non-vanishing direction differ by a constant. -/
theorem lift_unique {S : Set ℝ} (hS : IsPreconnected S) {f g : ℝ → ℝ} (hf : ContinuousOn f S)
    (hg : ContinuousOn g S) {u v : ℝ → ℝ} (ha : ∀ x ∈ S, IsAngle (f x) (u x) (v x))
    (hb : ∀ x ∈ S, IsAngle (g x) (u x) (v x)) (hne : ∀ x ∈ S, ¬ (u x = 0 ∧ v x = 0))
    {x y : ℝ} (hx : x ∈ S) (hy : y ∈ S) : f y - f x = g y - g x := by
  have hp := Real.pi_pos
  have hint : ∀ z ∈ S, ∃ k : ℤ, f z - g z = k * pi := by
    intro z hz
    obtain ⟨k, hk⟩ := (hb z hz).unique (ha z hz) (hne z hz)
    exact ⟨k, by linarith⟩
  have hfl := floor_const hS (f := fun z => f z - g z + pi / 2) ((hf.sub hg).add continuousOn_const) (by
    intro z hz
    obtain ⟨k, hk⟩ := hint z hz
    rw [Real.sin_add_pi_div_two, hk, Real.cos_int_mul_pi]
    exact zpow_ne_zero _ (by norm_num)) hx hy
  obtain ⟨k, hk⟩ := hint x hx
  obtain ⟨l, hl⟩ := hint y hy
  have e : ∀ m : ℤ, ⌊((m : ℝ) * pi + pi / 2) / pi⌋ = m := by
    intro m
    rw [Int.floor_eq_iff]
    constructor
    · rw [le_div_iff₀ hp]; linarith
    · rw [div_lt_iff₀ hp]; nlinarith
  rw [hk, hl, e, e] at hfl
  subst hfl
  linarith

/-- A non-vanishing continuous direction has a continuous angle with any given starting value. -/
theorem lift_exists {a b : ℝ} (hab : a < b) {u v : ℝ → ℝ} (hu : ContinuousOn u (Icc a b))
    (hv : ContinuousOn v (Icc a b)) (hne : ∀ x ∈ Icc a b, ¬ (u x = 0 ∧ v x = 0)) (c : ℝ) (hc : c ∈ Icc a b)
    (θ : ℝ) (hθ : IsAngle θ (u c) (v c)) :
    ∃ Θ : ℝ → ℝ, ContinuousOn Θ (Icc a b) ∧ (∀ x ∈ Icc a b, IsAngle (Θ x) (u x) (v x)) ∧ Θ c = θ := by
  have hp := Real.pi_pos
  -- parametrise by the unit interval
  let φ : unitInterval → ℝ := fun t => a + t * (b - a)
  have hφc : Continuous φ := by fun_prop
  have hφm : ∀ t, φ t ∈ Icc a b := by
    intro t
    have h0 := t.2.1
    have h1 := t.2.2
    constructor
    · show a ≤ a + t * (b - a); nlinarith
    · show a + t * (b - a) ≤ b; nlinarith
  let w : unitInterval → ℂ := fun t => ⟨v (φ t), u (φ t)⟩
  have hwc : Continuous w := by
    have h1 : Continuous (fun t => v (φ t)) := hv.comp_continuous hφc hφm
    have h2 : Continuous (fun t => u (φ t)) := hu.comp_continuous hφc hφm
    have : w = fun t => (v (φ t) : ℂ) + (u (φ t) : ℂ) * Complex.I := by
      funext t; exact Complex.mk_eq_add_mul_I _ _
    rw [this]
    exact (Complex.continuous_ofReal.comp h1).add ((Complex.continuous_ofReal.comp h2).mul continuous_const)
  have hw0 : ∀ t, w t ≠ 0 := by
    intro t h
    have h1 := congrArg Complex.re h
    have h2 := congrArg Complex.im h
    exact hne _ (hφm t) ⟨h2, h1⟩
  let γc : C(unitInterval, Circle) := ⟨fun t => ⟨w t / ‖w t‖, by
      refine mem_sphere_zero_iff_norm.mpr ?_
      rw [norm_div, Complex.norm_real, norm_norm,
        div_self (norm_ne_zero_iff.mpr (hw0 t))]⟩, by
      refine Continuous.subtype_mk ?_ _
      refine hwc.div (Complex.continuous_ofReal.comp hwc.norm) ?_
      intro t
      exact_mod_cast norm_ne_zero_iff.mpr (hw0 t)⟩
  have : Fact ((0 : ℝ) < 2 * pi) := ⟨by linarith⟩
  let γ : C(unitInterval, AddCircle (2 * pi)) :=
    ⟨fun t => AddCircle.homeomorphCircle'.symm (γc t), AddCircle.homeomorphCircle'.symm.continuous.comp γc.continuous⟩
  have hsurj : ∃ e : ℝ, γ 0 = (e : AddCircle (2 * pi)) :=
    ⟨(QuotientAddGroup.mk_surjective (γ 0)).choose, (QuotientAddGroup.mk_surjective (γ 0)).choose_spec.symm⟩
  obtain ⟨e, he⟩ := hsurj
  obtain ⟨Γ, hΓ, -⟩ := (AddCircle.isCoveringMap_coe (2 * pi)).exists_path_lifts γ e he
  have hang : ∀ t, IsAngle (Γ t) (u (φ t)) (v (φ t)) := by
    intro t
    have h1 : ((Γ t : ℝ) : AddCircle (2 * pi)) = AddCircle.homeomorphCircle'.symm (γc t) := congrFun hΓ t
    have h2 : γc t = Circle.exp (Γ t) := by
      have := congrArg AddCircle.homeomorphCircle' h1
      rw [Homeomorph.apply_symm_apply] at this
      rw [← this]; rfl
    have h3 : w t / ‖w t‖ = Complex.exp (Γ t * Complex.I) := by
      have := congrArg (fun z : Circle => (z : ℂ)) h2
      simp only [Circle.coe_exp] at this
      exact this
    have hn : (‖w t‖ : ℂ) ≠ 0 := by exact_mod_cast norm_ne_zero_iff.mpr (hw0 t)
    rw [div_eq_iff hn, Complex.exp_mul_I] at h3
    have hre := congrArg Complex.re h3
    have him := congrArg Complex.im h3
    rw [← Complex.ofReal_cos, ← Complex.ofReal_sin] at hre him
    simp only [Complex.mul_re, Complex.add_re, Complex.ofReal_re, Complex.mul_im, Complex.add_im,
      Complex.ofReal_im, Complex.I_re, Complex.I_im, mul_zero, mul_one, zero_mul, sub_zero, add_zero,
      zero_add] at hre him
    unfold IsAngle
    have e1 : (w t).re = v (φ t) := rfl
    have e2 : (w t).im = u (φ t) := rfl
    rw [e1] at hre; rw [e2] at him
    linear_combination cos (Γ t) * him - sin (Γ t) * hre
  -- back to [a, b]
  have hba : b - a ≠ 0 := by linarith
  let ψ : ℝ → unitInterval := fun x => Set.projIcc 0 1 zero_le_one ((x - a) / (b - a))
  have hψ : ∀ x ∈ Icc a b, φ (ψ x) = x := by
    intro x hx
    have hm : (x - a) / (b - a) ∈ Icc (0:ℝ) 1 :=
      ⟨div_nonneg (by linarith [hx.1]) (by linarith), (div_le_one (by linarith)).mpr (by linarith [hx.2])⟩
    show a + (ψ x : ℝ) * (b - a) = x
    have : (ψ x : ℝ) = (x - a) / (b - a) := by
      show ((Set.projIcc (0:ℝ) 1 zero_le_one ((x - a) / (b - a)) : unitInterval) : ℝ) = _
      rw [Set.projIcc_of_mem _ hm]
    rw [this]; field_simp; ring
  have hψc : Continuous ψ := by
    refine continuous_projIcc.comp ?_
    fun_prop
  have hc1 := hang (ψ c)
  rw [hψ c hc] at hc1
  obtain ⟨k, hk⟩ := hc1.unique hθ (hne c hc)
  refine ⟨fun x => Γ (ψ x) + k * pi, ?_, ?_, hk.symm⟩
  · exact ((Γ.continuous.comp hψc).add continuous_const).continuousOn
  · intro x hx
    have := hang (ψ x)
    rw [hψ x hx] at this
    exact this.add_int_mul_pi k

end Verif.Prufer
