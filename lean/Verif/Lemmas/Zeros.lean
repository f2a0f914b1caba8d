import Verif.Lemmas.ConstSol
import Mathlib.Order.Interval.Finset.Defs
import Mathlib.Data.Int.Interval
import Mathlib.Data.Set.Card

/-!
# A continuous angle counts zeros
-/
namespace Verif.Prufer
open Real (pi sin cos)
open Set (Icc Ioo Ioc Ico Ioi Iio)
open Topology

/-- `y` is continuously differentiable on `[A, B]` with derivative `dy`, and has no double zero. -/
structure C1NoDouble (A B : ℝ) (y dy : ℝ → ℝ) : Prop where
  deriv : ∀ x ∈ Icc A B, HasDerivWithinAt y (dy x) (Icc A B) x
  cont : ContinuousOn dy (Icc A B)
  simple : ∀ x ∈ Icc A B, ¬ (y x = 0 ∧ dy x = 0)

/-- `Θ` is a continuous angle of `(dy, sc · y)` on `[A, B]`. -/
structure ContAngle (A B sc : ℝ) (y dy Θ : ℝ → ℝ) : Prop where
  cont : ContinuousOn Θ (Icc A B)
  angle : ∀ x ∈ Icc A B, IsAngle (Θ x) (sc * y x) (dy x)

variable {A B sc : ℝ} {y dy Θ : ℝ → ℝ}

/-- At a zero the angle passes upwards through a multiple of π. -/
theorem local_cross (hsc : 0 < sc) (h : C1NoDouble A B y dy) (hΘ : ContAngle A B sc y dy Θ) {c : ℝ} (hc : c ∈ Icc A B)
    {m : ℤ} (hm : Θ c = m * pi) :
    ∃ ε > 0, ∀ x ∈ Icc A B, |x - c| < ε → (c < x → m * pi < Θ x) ∧ (x < c → Θ x < m * pi) := by
  have hp := Real.pi_pos
  have hyc : y c = 0 := by
    have h0 : sin (Θ c) = 0 := by rw [hm]; exact Real.sin_int_mul_pi m
    have hne : ¬ (sc * y c = 0 ∧ dy c = 0) := fun hx =>
      h.simple c hc ⟨(mul_eq_zero.mp hx.1).resolve_left hsc.ne', hx.2⟩
    exact (mul_eq_zero.mp (((hΘ.angle c hc).sin_eq_zero hne).mp h0)).resolve_left hsc.ne'
  have hdc : dy c ≠ 0 := fun hd => h.simple c hc ⟨hyc, hd⟩
  have hD : 0 < |dy c| := abs_pos.mpr hdc
  -- y is close to its tangent
  have e1 : ∀ᶠ x in 𝓝[Icc A B] c, |y x - dy c * (x - c)| ≤ |dy c| / 4 * |x - c| := by
    have := (h.deriv c hc).isLittleO
    have := this.def (c := |dy c| / 4) (by positivity)
    filter_upwards [this] with x hx
    simp only [Real.norm_eq_abs, hyc] at hx
    convert hx using 2
    simp; ring
  have e2 : ∀ᶠ x in 𝓝[Icc A B] c, |dy x - dy c| < |dy c| / 2 := by
    have := (h.cont c hc).eventually (Metric.ball_mem_nhds (dy c) (by positivity : 0 < |dy c| / 2))
    filter_upwards [this] with x hx
    exact hx
  have e3 : ∀ᶠ x in 𝓝[Icc A B] c, |Θ x - Θ c| < pi / 2 := by
    have := (hΘ.cont c hc).eventually (Metric.ball_mem_nhds (Θ c) (by positivity : 0 < pi / 2))
    filter_upwards [this] with x hx
    exact hx
  obtain ⟨ε, hε, hball⟩ := Metric.mem_nhdsWithin_iff.mp (e1.and (e2.and e3))
  refine ⟨ε, hε, ?_⟩
  intro x hx hxc
  obtain ⟨q1, q2, q3⟩ := hball ⟨by rw [Metric.mem_ball, Real.dist_eq]; exact hxc, hx⟩
  rw [hm, abs_lt] at q3
  obtain ⟨ρ, r1, r2⟩ := (hΘ.angle x hx).rep
  have ecos : 0 < cos (Θ x - m * pi) := Real.cos_pos_of_mem_Ioo ⟨by linarith [q3.1], q3.2⟩
  -- sign of y dy
  have hprod : ∀ s : ℝ, (s = 1 ∨ s = -1) → 0 < s * (x - c) → 0 < s * (y x * dy x) := by
    intro s hs hsx
    have hx0 : |x - c| = s * (x - c) := by
      rcases hs with rfl | rfl
      · rw [abs_of_pos (by linarith)]; ring
      · rw [abs_of_neg (by linarith)]; ring
    rw [hx0] at q1
    rw [abs_le] at q1
    rw [abs_lt] at q2
    rcases lt_or_gt_of_ne hdc with hneg | hpos
    · rw [abs_of_neg hneg] at q1 q2
      have hdx : dy x < dy c / 2 := by linarith [q2.2]
      have hyx : s * y x ≤ 3 / 4 * (dy c * (s * (x - c))) := by
        rcases hs with rfl | rfl <;> linarith [q1.1, q1.2]
      have h1 : dy c * (s * (x - c)) < 0 := mul_neg_of_neg_of_pos hneg hsx
      have : 0 < (s * y x) * dy x := mul_pos_of_neg_of_neg (by linarith) (by linarith)
      linarith
    · rw [abs_of_pos hpos] at q1 q2
      have hdx : dy c / 2 < dy x := by linarith [q2.1]
      have hyx : 3 / 4 * (dy c * (s * (x - c))) ≤ s * y x := by
        rcases hs with rfl | rfl <;> linarith [q1.1, q1.2]
      have h1 : 0 < dy c * (s * (x - c)) := mul_pos hpos hsx
      have : 0 < (s * y x) * dy x := mul_pos (by linarith) (by linarith)
      linarith
  have hsin : sc * (y x * dy x) = ρ ^ 2 * (sin (Θ x - m * pi) * cos (Θ x - m * pi)) := by
    rw [Real.sin_sub_int_mul_pi, Real.cos_sub_int_mul_pi]
    have e : ((-1 : ℝ) ^ m) * (-1) ^ m = 1 := by rw [← mul_zpow]; norm_num
    have : sc * (y x * dy x) = (ρ * sin (Θ x)) * (ρ * cos (Θ x)) := by rw [← r1, ← r2]; ring
    rw [this]
    linear_combination (-ρ ^ 2 * sin (Θ x) * cos (Θ x)) * e
  constructor
  · intro hcx
    have h1 := hprod 1 (Or.inl rfl) (by linarith)
    rw [one_mul] at h1
    by_contra hcon; push Not at hcon
    have hs : sin (Θ x - m * pi) ≤ 0 := Real.sin_nonpos_of_nonpos_of_neg_pi_le (by linarith) (by linarith)
    have h2 := mul_pos hsc h1
    rw [hsin] at h2
    nlinarith [mul_nonneg (mul_nonneg (neg_nonneg.mpr hs) ecos.le) (sq_nonneg ρ)]
  · intro hcx
    have h1 := hprod (-1) (Or.inr rfl) (by linarith)
    by_contra hcon; push Not at hcon
    have hs : 0 ≤ sin (Θ x - m * pi) := Real.sin_nonneg_of_nonneg_of_le_pi (by linarith) (by linarith)
    have h2 : sc * (y x * dy x) < 0 := by nlinarith
    rw [hsin] at h2
    nlinarith [mul_nonneg (mul_nonneg hs ecos.le) (sq_nonneg ρ)]

/-- After reaching a multiple of π the angle stays above it. -/
theorem cross_after (hsc : 0 < sc) (h : C1NoDouble A B y dy) (hΘ : ContAngle A B sc y dy Θ) {c x : ℝ} (hc : c ∈ Icc A B)
    (hx : x ∈ Icc A B) {m : ℤ} (hm : Θ c = m * pi) (hcx : c < x) : m * pi < Θ x := by
  by_contra hcon; push Not at hcon
  obtain ⟨ε, hε, hloc⟩ := local_cross hsc h hΘ hc hm
  -- a point just after c
  set c1 := min (c + ε / 2) x with hc1
  have hc1c : c < c1 := lt_min (by linarith) hcx
  have hc1x : c1 ≤ x := min_le_right _ _
  have hc1m : c1 ∈ Icc A B := ⟨hc.1.trans hc1c.le, hc1x.trans hx.2⟩
  have hc1v : m * pi < Θ c1 := by
    refine (hloc c1 hc1m ?_).1 hc1c
    rw [abs_of_pos (by linarith)]
    have := min_le_left (c + ε / 2) x
    rw [← hc1] at this; linarith
  -- the first point at or below m π after c1
  have hsub : Icc c1 x ⊆ Icc A B := fun z hz => ⟨hc1m.1.trans hz.1, hz.2.trans hx.2⟩
  have hcl : IsCompact (Icc c1 x ∩ Θ ⁻¹' (Set.Iic (m * pi))) :=
    isCompact_Icc.of_isClosed_subset
      ((hΘ.cont.mono hsub).preimage_isClosed_of_isClosed isClosed_Icc isClosed_Iic) Set.inter_subset_left
  obtain ⟨d, ⟨hd1, hd2⟩, hmin⟩ := hcl.exists_isLeast ⟨x, ⟨hc1x, le_rfl⟩, hcon⟩
  have hd2' : Θ d ≤ m * pi := hd2
  have hdc1 : c1 < d := lt_of_le_of_ne hd1.1 (by rintro rfl; linarith)
  have hdm : d ∈ Icc A B := hsub hd1
  have hbefore : ∀ z, c1 ≤ z → z < d → m * pi < Θ z := by
    intro z hz1 hz2
    by_contra hz; push Not at hz
    exact absurd (hmin ⟨⟨hz1, hz2.le.trans hd1.2⟩, hz⟩) (not_le.mpr hz2)
  -- at d the value is m π
  have hge : m * pi ≤ Θ d := by
    obtain ⟨z, hz, hzv⟩ := intermediate_value_Icc' hdc1.le (hΘ.cont.mono (fun z hz => hsub ⟨hz.1, hz.2.trans hd1.2⟩))
      (show m * pi ∈ Icc (Θ d) (Θ c1) from ⟨hd2', hc1v.le⟩)
    rcases eq_or_lt_of_le hz.2 with e | e
    · rw [← e, hzv]
    · exact absurd hzv (hbefore z hz.1 e).ne'
  have hdv : Θ d = m * pi := le_antisymm hd2' hge
  obtain ⟨ε', hε', hloc'⟩ := local_cross hsc h hΘ hdm hdv
  set z := max c1 (d - ε' / 2) with hz
  have hzd : z < d := max_lt hdc1 (by linarith)
  have hz1 : c1 ≤ z := le_max_left _ _
  have hzm : z ∈ Icc A B := hsub ⟨hz1, hzd.le.trans hd1.2⟩
  have h1 := (hloc' z hzm (by
    rw [abs_of_neg (by linarith)]
    have := le_max_right c1 (d - ε' / 2)
    rw [← hz] at this; linarith)).2 hzd
  linarith [hbefore z hz1 hzd]

/-- Before reaching it the angle is below it. -/
theorem cross_before (hsc : 0 < sc) (h : C1NoDouble A B y dy) (hΘ : ContAngle A B sc y dy Θ) {c x : ℝ} (hc : c ∈ Icc A B)
    (hx : x ∈ Icc A B) {m : ℤ} (hm : Θ c = m * pi) (hxc : x < c) : Θ x < m * pi := by
  by_contra hcon; push Not at hcon
  -- the angle equals m π somewhere in [x, c) or is above; either way it would stay above at c
  obtain ⟨ε, hε, hloc⟩ := local_cross hsc h hΘ hc hm
  set z := max x (c - ε / 2) with hz
  have hzc : z < c := max_lt hxc (by linarith)
  have hxz : x ≤ z := le_max_left _ _
  have hzm : z ∈ Icc A B := ⟨hx.1.trans hxz, hzc.le.trans hc.2⟩
  have hzv : Θ z < m * pi := (hloc z hzm (by
    rw [abs_of_neg (by linarith)]
    have := le_max_right x (c - ε / 2)
    rw [← hz] at this; linarith)).2 hzc
  obtain ⟨w, hw, hwv⟩ := intermediate_value_Icc' hxz
    (hΘ.cont.mono (fun t ht => ⟨hx.1.trans ht.1, ht.2.trans hzm.2⟩)) (show m * pi ∈ Icc (Θ z) (Θ x) from ⟨hzv.le, hcon⟩)
  have hwz : w < c := lt_of_le_of_lt hw.2 hzc
  have hwm : w ∈ Icc A B := ⟨hx.1.trans hw.1, hwz.le.trans hc.2⟩
  have := cross_after hsc h hΘ hwm hc hwv hwz
  linarith

/-- A zero of `y` is a point where the angle is a multiple of π. -/
theorem zero_iff (hsc : 0 < sc) (h : C1NoDouble A B y dy) (hΘ : ContAngle A B sc y dy Θ) {x : ℝ} (hx : x ∈ Icc A B) :
    y x = 0 ↔ ∃ m : ℤ, Θ x = m * pi := by
  have hne : ¬ (sc * y x = 0 ∧ dy x = 0) := fun hz =>
    h.simple x hx ⟨(mul_eq_zero.mp hz.1).resolve_left hsc.ne', hz.2⟩
  have h1 := (hΘ.angle x hx).sin_eq_zero hne
  rw [Real.sin_eq_zero_iff] at h1
  constructor
  · intro h0
    obtain ⟨m, hm⟩ := h1.mpr (by rw [h0, mul_zero])
    exact ⟨m, hm.symm⟩
  · rintro ⟨m, hm⟩
    exact (mul_eq_zero.mp (h1.mp ⟨m, hm.symm⟩)).resolve_left hsc.ne'

/-- The number of zeros in `(a, b]`. -/
theorem count_Ioc (hsc : 0 < sc) (h : C1NoDouble A B y dy) (hΘ : ContAngle A B sc y dy Θ) {a b : ℝ} (ha : a ∈ Icc A B)
    (hb : b ∈ Icc A B) (hab : a ≤ b) :
    ({x ∈ Ioc a b | y x = 0} : Set ℝ).Finite ∧ (({x ∈ Ioc a b | y x = 0} : Set ℝ).ncard : ℤ) = ⌊Θ b / pi⌋ - ⌊Θ a / pi⌋ := by
  have hp := Real.pi_pos
  have hmem : ∀ x, x ∈ Icc a b → x ∈ Icc A B := fun x hx => ⟨ha.1.trans hx.1, hx.2.trans hb.2⟩
  have hcont : ContinuousOn Θ (Icc a b) := hΘ.cont.mono hmem
  have hfl : ∀ m : ℤ, ⌊(m : ℝ) * pi / pi⌋ = m := fun m => by
    rw [mul_div_assoc, div_self hp.ne', mul_one, Int.floor_intCast]
  have hmono : ⌊Θ a / pi⌋ ≤ ⌊Θ b / pi⌋ := by
    by_contra hcon; push Not at hcon
    have h1 : Θ b / pi < (⌊Θ a / pi⌋ : ℝ) := Int.floor_lt.mp hcon
    have h2 := Int.floor_le (Θ a / pi)
    rw [div_lt_iff₀ hp] at h1
    rw [le_div_iff₀ hp] at h2
    obtain ⟨z, hz, hzv⟩ := intermediate_value_Icc' hab hcont
      (show (⌊Θ a / pi⌋ : ℝ) * pi ∈ Icc (Θ b) (Θ a) from ⟨h1.le, h2⟩)
    rcases eq_or_lt_of_le hz.2 with e | e
    · rw [e] at hzv; linarith
    · have := cross_after hsc h hΘ (hmem z hz) hb hzv e; linarith
  have himg : (fun x => ⌊Θ x / pi⌋) '' ({x ∈ Ioc a b | y x = 0} : Set ℝ) =
      ((Finset.Ioc ⌊Θ a / pi⌋ ⌊Θ b / pi⌋ : Finset ℤ) : Set ℤ) := by
    ext m
    simp only [Set.mem_image, Set.mem_sep_iff, Finset.coe_Ioc, Set.mem_Ioc]
    constructor
    · rintro ⟨x, ⟨⟨hx1, hx2⟩, hx0⟩, rfl⟩
      have hxm := hmem x ⟨hx1.le, hx2⟩
      obtain ⟨m, hm⟩ := (zero_iff hsc h hΘ hxm).mp hx0
      rw [hm, hfl]
      constructor
      · rw [Int.floor_lt, div_lt_iff₀ hp]
        exact cross_before hsc h hΘ hxm ha hm hx1
      · rw [Int.le_floor, le_div_iff₀ hp]
        rcases eq_or_lt_of_le hx2 with e | e
        · rw [← e, hm]
        · exact (cross_after hsc h hΘ hxm hb hm e).le
    · rintro ⟨h1, h2⟩
      rw [Int.floor_lt, div_lt_iff₀ hp] at h1
      rw [Int.le_floor, le_div_iff₀ hp] at h2
      obtain ⟨z, hz, hzv⟩ := intermediate_value_Icc hab hcont (show (m : ℝ) * pi ∈ Icc (Θ a) (Θ b) from ⟨h1.le, h2⟩)
      refine ⟨z, ⟨⟨lt_of_le_of_ne hz.1 (by rintro rfl; linarith), hz.2⟩, ?_⟩, by rw [hzv, hfl]⟩
      exact (zero_iff hsc h hΘ (hmem z hz)).mpr ⟨m, hzv⟩
  have hinj : Set.InjOn (fun x => ⌊Θ x / pi⌋) ({x ∈ Ioc a b | y x = 0} : Set ℝ) := by
    rintro x ⟨hx, hx0⟩ z ⟨hz, hz0⟩ e
    have hxm := hmem x ⟨hx.1.le, hx.2⟩
    have hzm := hmem z ⟨hz.1.le, hz.2⟩
    obtain ⟨m, hm⟩ := (zero_iff hsc h hΘ hxm).mp hx0
    obtain ⟨n, hn⟩ := (zero_iff hsc h hΘ hzm).mp hz0
    simp only [hm, hn, hfl] at e
    subst e
    rcases lt_trichotomy x z with hlt | heq | hgt
    · have := cross_after hsc h hΘ hxm hzm hm hlt; linarith
    · exact heq
    · have := cross_after hsc h hΘ hzm hxm hn hgt; linarith
  refine ⟨Set.Finite.of_finite_image (by rw [himg]; exact Finset.finite_toSet _) hinj, ?_⟩
  rw [← Set.ncard_image_of_injOn hinj, himg, Set.ncard_coe_finset, Int.card_Ioc]
  omega

/-- The number of zeros in `[a, b)`. -/
theorem count_Ico (hsc : 0 < sc) (h : C1NoDouble A B y dy) (hΘ : ContAngle A B sc y dy Θ) {a b : ℝ} (ha : a ∈ Icc A B)
    (hb : b ∈ Icc A B) (hab : a ≤ b) :
    ({x ∈ Ico a b | y x = 0} : Set ℝ).Finite ∧ (({x ∈ Ico a b | y x = 0} : Set ℝ).ncard : ℤ) = ⌈Θ b / pi⌉ - ⌈Θ a / pi⌉ := by
  have hp := Real.pi_pos
  have hmem : ∀ x, x ∈ Icc a b → x ∈ Icc A B := fun x hx => ⟨ha.1.trans hx.1, hx.2.trans hb.2⟩
  have hcont : ContinuousOn Θ (Icc a b) := hΘ.cont.mono hmem
  have hfl : ∀ m : ℤ, ⌊(m : ℝ) * pi / pi⌋ = m := fun m => by
    rw [mul_div_assoc, div_self hp.ne', mul_one, Int.floor_intCast]
  have hmono : ⌈Θ a / pi⌉ ≤ ⌈Θ b / pi⌉ := by
    by_contra hcon; push Not at hcon
    have h1 : (⌈Θ b / pi⌉ : ℝ) < Θ a / pi := Int.lt_ceil.mp hcon
    have h2 := Int.le_ceil (Θ b / pi)
    rw [lt_div_iff₀ hp] at h1
    rw [div_le_iff₀ hp] at h2
    obtain ⟨z, hz, hzv⟩ := intermediate_value_Icc' hab hcont
      (show (⌈Θ b / pi⌉ : ℝ) * pi ∈ Icc (Θ b) (Θ a) from ⟨h2, h1.le⟩)
    rcases eq_or_lt_of_le hz.1 with e | e
    · rw [← e] at hzv; linarith
    · have := cross_before hsc h hΘ (hmem z hz) ha hzv e; linarith
  have himg : (fun x => ⌊Θ x / pi⌋) '' ({x ∈ Ico a b | y x = 0} : Set ℝ) =
      ((Finset.Ico ⌈Θ a / pi⌉ ⌈Θ b / pi⌉ : Finset ℤ) : Set ℤ) := by
    ext m
    simp only [Set.mem_image, Set.mem_sep_iff, Finset.coe_Ico, Set.mem_Ico]
    constructor
    · rintro ⟨x, ⟨⟨hx1, hx2⟩, hx0⟩, rfl⟩
      have hxm := hmem x ⟨hx1, hx2.le⟩
      obtain ⟨m, hm⟩ := (zero_iff hsc h hΘ hxm).mp hx0
      rw [hm, hfl]
      constructor
      · rw [Int.ceil_le, div_le_iff₀ hp]
        rcases eq_or_lt_of_le hx1 with e | e
        · rw [e, hm]
        · exact (cross_before hsc h hΘ hxm ha hm e).le
      · rw [Int.lt_ceil, lt_div_iff₀ hp]
        exact cross_after hsc h hΘ hxm hb hm hx2
    · rintro ⟨h1, h2⟩
      rw [Int.ceil_le, div_le_iff₀ hp] at h1
      rw [Int.lt_ceil, lt_div_iff₀ hp] at h2
      obtain ⟨z, hz, hzv⟩ := intermediate_value_Icc hab hcont (show (m : ℝ) * pi ∈ Icc (Θ a) (Θ b) from ⟨h1, h2.le⟩)
      refine ⟨z, ⟨⟨hz.1, lt_of_le_of_ne hz.2 (by rintro rfl; linarith)⟩, ?_⟩, by rw [hzv, hfl]⟩
      exact (zero_iff hsc h hΘ (hmem z hz)).mpr ⟨m, hzv⟩
  have hinj : Set.InjOn (fun x => ⌊Θ x / pi⌋) ({x ∈ Ico a b | y x = 0} : Set ℝ) := by
    rintro x ⟨hx, hx0⟩ z ⟨hz, hz0⟩ e
    have hxm := hmem x ⟨hx.1, hx.2.le⟩
    have hzm := hmem z ⟨hz.1, hz.2.le⟩
    obtain ⟨m, hm⟩ := (zero_iff hsc h hΘ hxm).mp hx0
    obtain ⟨n, hn⟩ := (zero_iff hsc h hΘ hzm).mp hz0
    simp only [hm, hn, hfl] at e
    subst e
    rcases lt_trichotomy x z with hlt | heq | hgt
    · have := cross_after hsc h hΘ hxm hzm hm hlt; linarith
    · exact heq
    · have := cross_after hsc h hΘ hzm hxm hn hgt; linarith
  refine ⟨Set.Finite.of_finite_image (by rw [himg]; exact Finset.finite_toSet _) hinj, ?_⟩
  rw [← Set.ncard_image_of_injOn hinj, himg, Set.ncard_coe_finset, Int.card_Ico]
  omega

end Verif.Prufer
