import Mathlib.Analysis.Calculus.Deriv.Slope
import Mathlib.Analysis.Calculus.Deriv.Comp
import Mathlib.Analysis.Calculus.Deriv.Add
import Mathlib.Topology.Order.IntermediateValue
import Mathlib.Topology.Algebra.Order.LiminfLimsup
import Mathlib.Topology.Order.Compact
import Mathlib.Data.Real.Basic

/-!
# Functions that cross the strip `[-2, 2]` in one direction only
-/
namespace Verif.Cross

theorem deriv_pos_local {g : ℝ → ℝ} {z d : ℝ} (hd : HasDerivAt g d z) (hpos : 0 < d) :
    ∃ ε > 0, ∀ w, (z < w → w < z + ε → g z < g w) ∧ (w < z → z - ε < w → g w < g z) := by
  have h := hasDerivAt_iff_tendsto_slope.mp hd
  have h1 := h.eventually (lt_mem_nhds hpos)
  rw [eventually_nhdsWithin_iff, Metric.eventually_nhds_iff] at h1
  obtain ⟨ε, hε, h2⟩ := h1
  refine ⟨ε, hε, fun w => ⟨fun a b => ?_, fun a b => ?_⟩⟩
  · have := h2 (y := w) (by rw [Real.dist_eq, abs_of_pos (by linarith)]; linarith) (by simp; exact a.ne')
    rw [slope_def_field] at this
    have h3 := (div_pos_iff_of_pos_right (sub_pos.mpr a)).mp this
    linarith
  · have := h2 (y := w) (by rw [Real.dist_eq, abs_of_neg (by linarith)]; linarith) (by simp; exact a.ne)
    rw [slope_def_field] at this
    have h3 : 0 < (g z - g w) / (z - w) := by rwa [← neg_sub (g w), ← neg_sub w, neg_div_neg_eq]
    have h4 := (div_pos_iff_of_pos_right (sub_pos.mpr a)).mp h3
    linarith

/-- A function whose zeros are crossed upwards stays positive. -/
theorem up_pos {g : ℝ → ℝ} {x y : ℝ} (hc : ContinuousOn g (Set.Icc x y)) (hd : ∀ z ∈ Set.Icc x y, g z = 0 → ∃ d > 0, HasDerivAt g d z) (hxy : x < y) (h0 : 0 ≤ g x) : 0 < g y := by
  by_contra hy
  push Not at hy
  obtain ⟨x', hx1, hx2, hx3⟩ : ∃ x', x ≤ x' ∧ x' < y ∧ 0 < g x' := by
    rcases h0.lt_or_eq with h | h
    · exact ⟨x, le_rfl, hxy, h⟩
    · obtain ⟨d, hdp, hd'⟩ := hd x ⟨le_rfl, hxy.le⟩ h.symm
      obtain ⟨ε, hε, k⟩ := deriv_pos_local hd' hdp
      have m1 : min (x + ε / 2) ((x + y) / 2) ≤ x + ε / 2 := min_le_left _ _
      have m2 : min (x + ε / 2) ((x + y) / 2) ≤ (x + y) / 2 := min_le_right _ _
      have m3 : x < min (x + ε / 2) ((x + y) / 2) := lt_min (by linarith) (by linarith)
      refine ⟨_, m3.le, by linarith, ?_⟩
      have := (k _).1 m3 (by linarith)
      linarith
  have hc' : ContinuousOn g (Set.Icc x' y) := hc.mono (Set.Icc_subset_Icc_left hx1)
  have hK : IsCompact (Set.Icc x' y ∩ g ⁻¹' Set.Iic 0) := isCompact_Icc.of_isClosed_subset (hc'.preimage_isClosed_of_isClosed isClosed_Icc isClosed_Iic) Set.inter_subset_left
  have hm := hK.sInf_mem ⟨y, ⟨hx2.le, le_rfl⟩, hy⟩
  obtain ⟨z, hz⟩ : ∃ z, z = sInf (Set.Icc x' y ∩ g ⁻¹' Set.Iic 0) := ⟨_, rfl⟩
  rw [← hz] at hm
  have hz0 : g z ≤ 0 := hm.2
  have hxz : x' < z := by
    rcases hm.1.1.lt_or_eq with h | h
    · exact h
    · rw [← h] at hz0; linarith
  have left : ∀ w, x' ≤ w → w < z → 0 < g w := fun w a b => by
    by_contra hw
    push Not at hw
    have : sInf (Set.Icc x' y ∩ g ⁻¹' Set.Iic 0) ≤ w := csInf_le hK.bddBelow ⟨⟨a, b.le.trans hm.1.2⟩, hw⟩
    rw [← hz] at this; linarith
  have hz1 : 0 ≤ g z := by
    by_contra h
    push Not at h
    have hcw : ContinuousWithinAt g (Set.Icc x' y) z := hc' z hm.1
    have h1 := hcw.eventually (gt_mem_nhds h)
    rw [eventually_nhdsWithin_iff, Metric.eventually_nhds_iff] at h1
    obtain ⟨ε, hε, h2⟩ := h1
    have m1 : z - ε / 2 ≤ max (z - ε / 2) x' := le_max_left _ _
    have m2 : x' ≤ max (z - ε / 2) x' := le_max_right _ _
    have m3 : max (z - ε / 2) x' < z := max_lt (by linarith) hxz
    have := h2 (y := max (z - ε / 2) x') (by rw [Real.dist_eq, abs_of_neg (by linarith)]; linarith) ⟨m2, by linarith [hm.1.2]⟩
    have := left _ m2 m3
    linarith
  obtain ⟨d, hdp, hd'⟩ := hd z ⟨hx1.trans hm.1.1, hm.1.2⟩ (le_antisymm hz0 hz1)
  obtain ⟨ε, hε, k⟩ := deriv_pos_local hd' hdp
  have m1 : z - ε / 2 ≤ max (z - ε / 2) x' := le_max_left _ _
  have m2 : x' ≤ max (z - ε / 2) x' := le_max_right _ _
  have m3 : max (z - ε / 2) x' < z := max_lt (by linarith) hxz
  have := (k _).2 m3 (by linarith)
  have := left _ m2 m3
  linarith

/-- In the strip `[-2, 2]` the function `f` increases. -/
def Up (f : ℝ → ℝ) (I : Set ℝ) : Prop := ∀ E ∈ I, |f E| ≤ 2 → ∃ d > 0, HasDerivAt f d E
/-- In the strip `[-2, 2]` the function `f` decreases. -/
def Dn (f : ℝ → ℝ) (I : Set ℝ) : Prop := ∀ E ∈ I, |f E| ≤ 2 → ∃ d < 0, HasDerivAt f d E

theorem Up.mono {f : ℝ → ℝ} {I J : Set ℝ} (h : Up f I) (hs : J ⊆ I) : Up f J := fun E hE => h E (hs hE)
theorem Dn.mono {f : ℝ → ℝ} {I J : Set ℝ} (h : Dn f I) (hs : J ⊆ I) : Dn f J := fun E hE => h E (hs hE)

theorem Dn.neg {f : ℝ → ℝ} {I : Set ℝ} (h : Dn f I) : Up (fun E => -f E) I := fun E hE he => by
  obtain ⟨d, hd, h1⟩ := h E hE (by simpa using he)
  exact ⟨-d, by linarith, h1.neg⟩

theorem Dn.reflect {f : ℝ → ℝ} {I : Set ℝ} (h : Dn f I) : Up (fun E => f (-E)) {E | -E ∈ I} := fun E hE he => by
  obtain ⟨d, hd, h1⟩ := h (-E) hE he
  exact ⟨-d, by linarith, by simpa [Function.comp_def] using HasDerivAt.comp E h1 (hasDerivAt_neg' E)⟩

/-- Once at a level of the strip, an increasing function stays above. -/
theorem Up.above {f : ℝ → ℝ} {I : Set ℝ} (hf : Continuous f) (hI : I.OrdConnected) (h : Up f I) {x y c : ℝ} (hx : x ∈ I) (hy : y ∈ I) (hxy : x < y) (hc : |c| ≤ 2) (h0 : c ≤ f x) :
    c < f y := by
  have := up_pos (g := fun E => f E - c) (x := x) (y := y) (by fun_prop) (fun z hz e => by
    have e : f z = c := sub_eq_zero.mp e
    obtain ⟨d, hd, h1⟩ := h z (hI.out hx hy hz) (by rw [e]; exact hc)
    exact ⟨d, hd, h1.sub_const c⟩) hxy (sub_nonneg.mpr h0)
  exact sub_pos.mp this

theorem Dn.below {f : ℝ → ℝ} {I : Set ℝ} (hf : Continuous f) (hI : I.OrdConnected) (h : Dn f I) {x y c : ℝ} (hx : x ∈ I) (hy : y ∈ I) (hxy : x < y) (hc : |c| ≤ 2) (h0 : f x ≤ c) :
    f y < c := by
  have := Up.above (c := -c) hf.neg hI h.neg hx hy hxy (by rwa [abs_neg]) (neg_le_neg h0)
  exact neg_lt_neg_iff.mp this

/-- Going from below the strip to above it. -/
theorem not_dn {f : ℝ → ℝ} (hf : Continuous f) {a m : ℝ} (ham : a < m) (ha : f a ≤ -2) (hm : 2 ≤ f m) : ¬ Dn f (Set.Ioo a m) := fun h => by
  have e1 := (hf.continuousAt (x := a)).eventually (gt_mem_nhds (show f a < 0 by linarith))
  have e2 := (hf.continuousAt (x := m)).eventually (lt_mem_nhds (show 0 < f m by linarith))
  rw [Metric.eventually_nhds_iff] at e1 e2
  obtain ⟨ε1, p1, k1⟩ := e1
  obtain ⟨ε2, p2, k2⟩ := e2
  obtain ⟨δ, hδ⟩ : ∃ δ, δ = min (min (ε1 / 2) (ε2 / 2)) ((m - a) / 3) := ⟨_, rfl⟩
  have d0 : 0 < δ := by rw [hδ]; refine lt_min (lt_min ?_ ?_) ?_ <;> linarith
  have d1 : δ ≤ ε1 / 2 := by rw [hδ]; exact (min_le_left _ _).trans (min_le_left _ _)
  have d2 : δ ≤ ε2 / 2 := by rw [hδ]; exact (min_le_left _ _).trans (min_le_right _ _)
  have d3 : δ ≤ (m - a) / 3 := by rw [hδ]; exact min_le_right _ _
  have q1 := k1 (y := a + δ) (by rw [Real.dist_eq]; simp [abs_of_pos d0]; linarith)
  have q2 := k2 (y := m - δ) (by rw [Real.dist_eq]; simp [abs_of_pos d0]; linarith)
  have := Dn.below (c := 0) hf Set.ordConnected_Ioo h (x := a + δ) (y := m - δ) ⟨by linarith, by linarith⟩ ⟨by linarith, by linarith⟩ (by linarith) (by simp) q1.le
  linarith

theorem not_up {f : ℝ → ℝ} (hf : Continuous f) {a m : ℝ} (ham : a < m) (ha : 2 ≤ f a) (hm : f m ≤ -2) : ¬ Up f (Set.Ioo a m) := fun h => by
  refine not_dn (f := fun E => -f E) hf.neg ham (by linarith) (by linarith) (fun E hE he => ?_)
  obtain ⟨d, hd, h1⟩ := h E hE (by simpa using he)
  exact ⟨-d, by linarith, h1.neg⟩

/-- To the left of `m`: below 2 up to at most one crossing, above 2 after it. -/
theorem half {f : ℝ → ℝ} (hf : Continuous f) {a m : ℝ} (ha : f a < 2) (h : Up f (Set.Ioo a m)) :
    (∃ p ∈ Set.Ioo a m, f p = 2 ∧ (∀ E ∈ Set.Ico a p, f E < 2) ∧ ∀ E ∈ Set.Ioo p m, 2 < f E) ∨ ∀ E ∈ Set.Ico a m, f E < 2 := by
  by_cases hE : ∃ E ∈ Set.Ioo a m, 2 ≤ f E
  · obtain ⟨E, hE, h2⟩ := hE
    obtain ⟨p, hp, hp2⟩ := intermediate_value_Icc hE.1.le hf.continuousOn ⟨ha.le, h2⟩
    have hpa : a < p := lt_of_le_of_ne hp.1 (fun e => by rw [← e] at hp2; linarith)
    have hpm : p ∈ Set.Ioo a m := ⟨hpa, hp.2.trans_lt hE.2⟩
    refine .inl ⟨p, hpm, hp2, fun F hF => ?_, fun F hF => ?_⟩
    · rcases hF.1.lt_or_eq with q | q
      · by_contra hc
        push Not at hc
        have := h.above hf Set.ordConnected_Ioo (c := 2) ⟨q, hF.2.trans hpm.2⟩ hpm hF.2 (by norm_num) hc
        linarith
      · rw [← q]; exact ha
    · exact h.above hf Set.ordConnected_Ioo hpm ⟨hpa.trans hF.1, hF.2⟩ hF.1 (by norm_num) hp2.ge
  · push Not at hE
    refine .inr fun E h' => ?_
    rcases h'.1.lt_or_eq with q | q
    · exact hE E ⟨q, h'.2⟩
    · rw [← q]; exact ha

theorem half' {f : ℝ → ℝ} (hf : Continuous f) {m b : ℝ} (hb : f b < 2) (h : Dn f (Set.Ioo m b)) :
    (∃ p ∈ Set.Ioo m b, f p = 2 ∧ (∀ E ∈ Set.Ioc p b, f E < 2) ∧ ∀ E ∈ Set.Ioo m p, 2 < f E) ∨ ∀ E ∈ Set.Ioc m b, f E < 2 := by
  have h' : Up (fun E => f (-E)) (Set.Ioo (-b) (-m)) := h.reflect.mono (fun E hE => ⟨by linarith [hE.2], by linarith [hE.1]⟩)
  rcases half (f := fun E => f (-E)) (by fun_prop) (by simpa using hb) h' with ⟨p, hp, e, k1, k2⟩ | k
  · refine .inl ⟨-p, ⟨by linarith [hp.2], by linarith [hp.1]⟩, e, fun E hE => ?_, fun E hE => ?_⟩
    · simpa using k1 (-E) ⟨by linarith [hE.2], by linarith [hE.1]⟩
    · simpa using k2 (-E) ⟨by linarith [hE.2], by linarith [hE.1]⟩
  · exact .inr fun E hE => by simpa using k (-E) ⟨by linarith [hE.2], by linarith [hE.1]⟩

/-- What the trace `f` of a family of monodromy matrices satisfies, with `B` zero at the eigenvalues of a separated problem and `D` the double points. -/
structure Floquet (f B : ℝ → ℝ) (D : ℝ → Prop) : Prop where
  diff : ∀ E, ∃ d, HasDerivAt f d E
  contB : Continuous B
  strip : ∀ E d, HasDerivAt f d E → |f E| ≤ 2 → B E ≠ 0 → 0 < B E * d
  simple : ∀ E, f E = 2 → ¬ D E → ∃ d, d ≠ 0 ∧ HasDerivAt f d E
  double : ∀ E, D E → f E = 2 ∧ ∃ ε > 0, ∀ w, w ≠ E → |w - E| < ε → f w < 2
  zeroB : ∀ E, D E → B E = 0

variable {f B : ℝ → ℝ} {D : ℝ → Prop}

theorem Floquet.cont (h : Floquet f B D) : Continuous f := continuous_iff_continuousAt.mpr fun E => (h.diff E).elim fun _ h => h.continuousAt

/-- Between eigenvalues of the separated problem the strip is crossed in one direction. -/
theorem Floquet.direction (h : Floquet f B D) {I : Set ℝ} (hI : I.OrdConnected) (h0 : ∀ E ∈ I, B E ≠ 0) : Up f I ∨ Dn f I := by
  have key : (∀ E ∈ I, 0 < B E) ∨ ∀ E ∈ I, B E < 0 := by
    by_contra hc
    push Not at hc
    obtain ⟨⟨x, hx, h1⟩, ⟨y, hy, h2⟩⟩ := hc
    obtain ⟨z, hz, e⟩ := hI.isPreconnected.intermediate_value hx hy h.contB.continuousOn ⟨h1, h2⟩
    exact h0 z hz e
  rcases key with k | k
  · refine .inl fun E hE he => ?_
    obtain ⟨d, hd⟩ := h.diff E
    exact ⟨d, pos_of_mul_pos_right (h.strip E d hd he (h0 E hE)) (k E hE).le, hd⟩
  · refine .inr fun E hE he => ?_
    obtain ⟨d, hd⟩ := h.diff E
    have := h.strip E d hd he (h0 E hE)
    exact ⟨d, by by_contra hc; push Not at hc; have := mul_nonpos_of_nonpos_of_nonneg (k E hE).le hc; linarith, hd⟩

theorem Floquet.up (h : Floquet f B D) {a m : ℝ} (ham : a < m) (h0 : ∀ E ∈ Set.Ioo a m, B E ≠ 0) (ha : f a ≤ -2) (hm : 2 ≤ f m) : Up f (Set.Ioo a m) :=
  (h.direction Set.ordConnected_Ioo h0).resolve_right (not_dn h.cont ham ha hm)

theorem Floquet.dn (h : Floquet f B D) {a m : ℝ} (ham : a < m) (h0 : ∀ E ∈ Set.Ioo a m, B E ≠ 0) (ha : 2 ≤ f a) (hm : f m ≤ -2) : Dn f (Set.Ioo a m) :=
  (h.direction Set.ordConnected_Ioo h0).resolve_left (not_up h.cont ham ha hm)

/-- The roots of `f = 2` in `[a, b]` are `p ≤ q`, equal exactly when double. -/
structure Pair (f : ℝ → ℝ) (D : ℝ → Prop) (a m b p q : ℝ) : Prop where
  left : a < p
  le1 : p ≤ m
  le2 : m ≤ q
  right : q < b
  roots : ∀ E ∈ Set.Icc a b, f E = 2 ↔ E = p ∨ E = q
  eq : p = q → D p
  ne : p ≠ q → ¬ D p ∧ ¬ D q

theorem Floquet.pair (h : Floquet f B D) {a m b : ℝ} (ham : a < m) (hmb : m < b) (B1 : ∀ E ∈ Set.Ioo a m, B E ≠ 0) (B2 : ∀ E ∈ Set.Ioo m b, B E ≠ 0)
    (ha : f a ≤ -2) (hm : 2 ≤ f m) (hb : f b ≤ -2) : ∃ p q, Pair f D a m b p q := by
  have u1 := h.up ham B1 ha hm
  have u2 := h.dn hmb B2 hm hb
  have ha' : f a < 2 := by linarith
  have hb' : f b < 2 := by linarith
  -- double points are not surrounded by larger values
  have dleft : ∀ p, p < m → (∀ E ∈ Set.Ioo p m, 2 < f E) → ¬ D m := fun p hp k hD => by
    obtain ⟨-, ε, hε, k'⟩ := h.double m hD
    have m1 : m - ε / 2 ≤ max (m - ε / 2) ((p + m) / 2) := le_max_left _ _
    have m2 : (p + m) / 2 ≤ max (m - ε / 2) ((p + m) / 2) := le_max_right _ _
    have m3 : max (m - ε / 2) ((p + m) / 2) < m := max_lt (by linarith) (by linarith)
    have := k' _ m3.ne (by rw [abs_of_neg (by linarith)]; linarith)
    have := k _ ⟨by linarith, m3⟩
    linarith
  have dright : ∀ q, m < q → (∀ E ∈ Set.Ioo m q, 2 < f E) → ¬ D m := fun q hq k hD => by
    obtain ⟨-, ε, hε, k'⟩ := h.double m hD
    have m1 : min (m + ε / 2) ((m + q) / 2) ≤ m + ε / 2 := min_le_left _ _
    have m2 : min (m + ε / 2) ((m + q) / 2) ≤ (m + q) / 2 := min_le_right _ _
    have m3 : m < min (m + ε / 2) ((m + q) / 2) := lt_min (by linarith) (by linarith)
    have := k' _ m3.ne' (by rw [abs_of_pos (by linarith)]; linarith)
    have := k _ ⟨m3, by linarith⟩
    linarith
  have limL : (∀ E ∈ Set.Ico a m, f E < 2) → f m = 2 := fun k => le_antisymm (by
    by_contra hc
    push Not at hc
    have e := (h.cont.continuousAt (x := m)).eventually (lt_mem_nhds hc)
    rw [Metric.eventually_nhds_iff] at e
    obtain ⟨ε, hε, k'⟩ := e
    have m1 : m - ε / 2 ≤ max (m - ε / 2) a := le_max_left _ _
    have m2 : a ≤ max (m - ε / 2) a := le_max_right _ _
    have m3 : max (m - ε / 2) a < m := max_lt (by linarith) ham
    have := k' (y := max (m - ε / 2) a) (by rw [Real.dist_eq, abs_of_neg (by linarith)]; linarith)
    have := k _ ⟨m2, m3⟩
    linarith) hm
  have limR : (∀ E ∈ Set.Ioc m b, f E < 2) → f m = 2 := fun k => le_antisymm (by
    by_contra hc
    push Not at hc
    have e := (h.cont.continuousAt (x := m)).eventually (lt_mem_nhds hc)
    rw [Metric.eventually_nhds_iff] at e
    obtain ⟨ε, hε, k'⟩ := e
    have m1 : min (m + ε / 2) b ≤ m + ε / 2 := min_le_left _ _
    have m2 : min (m + ε / 2) b ≤ b := min_le_right _ _
    have m3 : m < min (m + ε / 2) b := lt_min (by linarith) hmb
    have := k' (y := min (m + ε / 2) b) (by rw [Real.dist_eq, abs_of_pos (by linarith)]; linarith)
    have := k _ ⟨m3, m2⟩
    linarith) hm
  have noD : ∀ p, (p ∈ Set.Ioo a m ∨ p ∈ Set.Ioo m b) → ¬ D p := fun p hp hD =>
    hp.elim (fun hp => B1 p hp (h.zeroB p hD)) (fun hp => B2 p hp (h.zeroB p hD))
  rcases half h.cont ha' u1 with ⟨p, hp, ep, p1, p2⟩ | p1 <;> rcases half' h.cont hb' u2 with ⟨q, hq, eq, q1, q2⟩ | q1
  · -- two crossings
    have nD := dleft p hp.2 p2
    have hm2 : f m ≠ 2 := fun e => by
      obtain ⟨d, hd, hd'⟩ := h.simple m e nD
      rcases lt_or_gt_of_ne hd with s | s
      · obtain ⟨ε, hε, k⟩ := deriv_pos_local hd'.neg (neg_pos.mpr s)
        have m1 : min (m + ε / 2) ((m + q) / 2) ≤ m + ε / 2 := min_le_left _ _
        have m2 : min (m + ε / 2) ((m + q) / 2) ≤ (m + q) / 2 := min_le_right _ _
        have m3 : m < min (m + ε / 2) ((m + q) / 2) := lt_min (by linarith) (by linarith [hq.1])
        have e1 := (k _).1 m3 (by linarith)
        have e2 := q2 _ ⟨m3, by linarith [hq.1]⟩
        simp only [Pi.neg_apply] at e1
        linarith
      · obtain ⟨ε, hε, k⟩ := deriv_pos_local hd' s
        have m1 : m - ε / 2 ≤ max (m - ε / 2) ((p + m) / 2) := le_max_left _ _
        have m2 : (p + m) / 2 ≤ max (m - ε / 2) ((p + m) / 2) := le_max_right _ _
        have m3 : max (m - ε / 2) ((p + m) / 2) < m := max_lt (by linarith) (by linarith [hp.2])
        have e1 := (k _).2 m3 (by linarith)
        have e2 := p2 _ ⟨by linarith [hp.2], m3⟩
        linarith
    refine ⟨p, q, hp.1, hp.2.le, hq.1.le, hq.2, fun E hE => ⟨fun e => ?_, ?_⟩, fun e => ?_, fun _ => ⟨noD p (.inl hp), noD q (.inr hq)⟩⟩
    · rcases lt_trichotomy E p with s | s | s
      · linarith [p1 E ⟨hE.1, s⟩]
      · exact .inl s
      rcases lt_trichotomy E m with t | t | t
      · linarith [p2 E ⟨s, t⟩]
      · exact absurd (t ▸ e) hm2
      rcases lt_trichotomy E q with r | r | r
      · linarith [q2 E ⟨t, r⟩]
      · exact .inr r
      · linarith [q1 E ⟨r, hE.2⟩]
    · rintro (e | e) <;> rw [e] <;> assumption
    · exact absurd e (hp.2.trans hq.1).ne
  · have e2 := limR q1
    refine ⟨p, m, hp.1, hp.2.le, le_rfl, hmb, fun E hE => ⟨fun e => ?_, ?_⟩, fun e => absurd e hp.2.ne, fun _ => ⟨noD p (.inl hp), dleft p hp.2 p2⟩⟩
    · rcases lt_trichotomy E p with s | s | s
      · linarith [p1 E ⟨hE.1, s⟩]
      · exact .inl s
      rcases lt_trichotomy E m with t | t | t
      · linarith [p2 E ⟨s, t⟩]
      · exact .inr t
      · linarith [q1 E ⟨t, hE.2⟩]
    · rintro (e | e) <;> rw [e] <;> assumption
  · have e2 := limL p1
    refine ⟨m, q, ham, le_rfl, hq.1.le, hq.2, fun E hE => ⟨fun e => ?_, ?_⟩, fun e => absurd e hq.1.ne, fun _ => ⟨dright q hq.1 q2, noD q (.inr hq)⟩⟩
    · rcases lt_trichotomy E m with t | t | t
      · linarith [p1 E ⟨hE.1, t⟩]
      · exact .inl t
      rcases lt_trichotomy E q with r | r | r
      · linarith [q2 E ⟨t, r⟩]
      · exact .inr r
      · linarith [q1 E ⟨r, hE.2⟩]
    · rintro (e | e) <;> rw [e] <;> assumption
  · have e2 := limL p1
    refine ⟨m, m, ham, le_rfl, le_rfl, hmb, fun E hE => ⟨fun e => ?_, ?_⟩, fun _ => ?_, fun e => absurd rfl e⟩
    · rcases lt_trichotomy E m with t | t | t
      · linarith [p1 E ⟨hE.1, t⟩]
      · exact .inl t
      · linarith [q1 E ⟨t, hE.2⟩]
    · rintro (e | e) <;> rw [e] <;> assumption
    · by_contra nD
      obtain ⟨d, hd, hd'⟩ := h.simple m e2 nD
      rcases lt_or_gt_of_ne hd with s | s
      · obtain ⟨ε, hε, k⟩ := deriv_pos_local hd'.neg (neg_pos.mpr s)
        have m1 : m - ε / 2 ≤ max (m - ε / 2) a := le_max_left _ _
        have m2 : a ≤ max (m - ε / 2) a := le_max_right _ _
        have m3 : max (m - ε / 2) a < m := max_lt (by linarith) ham
        have e1 := (k _).2 m3 (by linarith)
        have e2 := p1 _ ⟨m2, m3⟩
        simp only [Pi.neg_apply] at e1
        linarith
      · obtain ⟨ε, hε, k⟩ := deriv_pos_local hd' s
        have m1 : min (m + ε / 2) b ≤ m + ε / 2 := min_le_left _ _
        have m2 : min (m + ε / 2) b ≤ b := min_le_right _ _
        have m3 : m < min (m + ε / 2) b := lt_min (by linarith) hmb
        have e1 := (k _).1 m3 (by linarith)
        have e2 := q1 _ ⟨m3, m2⟩
        linarith

end Verif.Cross
