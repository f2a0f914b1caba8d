import Verif.Model.Eta
import Verif.Lemmas.Eta
import Mathlib.Tactic.NormNum
import Mathlib.Tactic.NormNum.Prime
import Mathlib.Analysis.SpecificLimits.Basic
import Mathlib.Analysis.Complex.ExponentialBounds

/-!
# The functions η computed by the code

* C51: the computed values satisfy the defining relations
* C80: the computed values are accurate
-/
namespace Verif.Eta
open scoped BigOperators

section field
variable {K : Type} [Field K] [LinearOrder K] [IsStrictOrderedRing K]

/-- The sequence of values of the downward recurrence, counted from the top: `b 0` is the value with
index `k + 1`, `b 1` the one with index `k`. -/
def downSeq (Z : K) (k : ℕ) (cur next : K) : ℕ → K
  | 0 => next
  | 1 => cur
  | j + 2 => (2 * ((k - 1 - j : ℕ) : K) + 1) * downSeq Z k cur next (j + 1) + Z * downSeq Z k cur next j

/-- A sequence that satisfies the downward recurrence below `k`. -/
def DownRec (Z : K) (k : ℕ) (a : ℕ → K) : Prop :=
  ∀ i, i < k → a i = (2 * (i : K) + 1) * a (i + 1) + Z * a (i + 2)

theorem exists_downRec (Z : K) (k : ℕ) (cur next : K) :
    ∃ a : ℕ → K, a k = cur ∧ a (k + 1) = next ∧ DownRec Z k a := by
  refine ⟨fun i => downSeq Z k cur next (k + 1 - i), ?_, ?_, ?_⟩
  · simp [downSeq]
  · simp [downSeq]
  · intro i hi
    obtain ⟨d, rfl⟩ : ∃ d, k = i + 1 + d := ⟨k - (i + 1), by omega⟩
    have e0 : i + 1 + d + 1 - i = d + 2 := by omega
    have e1 : i + 1 + d + 1 - (i + 1) = d + 1 := by omega
    have e2 : i + 1 + d + 1 - (i + 2) = d := by omega
    have e3 : i + 1 + d - 1 - d = i := by omega
    simp only [e0, e1, e2, downSeq, e3]

theorem downLoop_spec (n : ℕ) (Z : K) (a : ℕ → K) (k : ℕ) (h : DownRec Z k a) (junk : ℕ → K) (i : ℕ) :
    downLoop n Z k (a k) (a (k + 1)) junk i = if i < k ∧ i < n then a i else junk i := by
  induction k generalizing junk with
  | zero => simp [downLoop]
  | succ k ih =>
    have hk : ((2 * k + 1 : ℕ) : ℚ) = 2 * (k : ℚ) + 1 := by push_cast; ring
    have hn : (CCmp.lit ((2 * k + 1 : ℕ) : ℚ) : K) * a (k + 1) + Z * a (k + 1 + 1) = a k := by
      rw [h k (Nat.lt_succ_self k), ccmp_lit, hk]; push_cast; ring
    unfold downLoop
    dsimp only
    rw [hn, ih (fun i hi => h i (Nat.lt_succ_of_lt hi))]
    by_cases h1 : i < k ∧ i < n
    · rw [if_pos h1, if_pos ⟨by omega, h1.2⟩]
    · rw [if_neg h1]
      by_cases h2 : i = k
      · subst h2
        by_cases h3 : i < n
        · simp [h3]
        · simp [h3]
      · have : ¬ (i < k + 1 ∧ i < n) := by omega
        rw [if_neg this]
        split <;> simp [Function.update, h2]

theorem upLoop_keep (Z : K) (k i : ℕ) (e : ℕ → K) (j : ℕ) (hj : j < i) : upLoop Z k i e j = e j := by
  induction k generalizing i e with
  | zero => rfl
  | succ k ih =>
    unfold upLoop
    rw [ih _ _ (by omega)]
    simp [Function.update, hj.ne]

theorem upLoop_rec {Z : K} (hZ : Z ≠ 0) (k i : ℕ) (e : ℕ → K) (hi : 2 ≤ i) (j : ℕ) (hj : i ≤ j + 2) (hj2 : j + 2 < i + k) :
    upLoop Z k i e j = (2 * (j : K) + 1) * upLoop Z k i e (j + 1) + Z * upLoop Z k i e (j + 2) := by
  induction k generalizing i e with
  | zero => omega
  | succ k ih =>
    unfold upLoop
    by_cases hc : i = j + 2
    · subst hc
      rw [upLoop_keep _ _ _ _ j (by omega), upLoop_keep _ _ _ _ (j + 1) (by omega),
        upLoop_keep _ _ _ _ (j + 2) (by omega)]
      simp only [Function.update_self, show (j + 2 - 2) = j by omega, show j + 2 - 1 = j + 1 by omega]
      rw [Function.update_of_ne (by omega), Function.update_of_ne (by omega)]
      rw [ccmp_lit, show 2 * (j + 2) - 3 = 2 * j + 1 by omega]
      push_cast
      field_simp
      ring
    · exact ih (i + 1) _ (by omega) (by omega) (by omega)

/-- `CCmp.lt (absK Z) (CCmp.lit 100)` is `|Z| < 100`. -/
theorem small_iff (Z : K) : CCmp.lt (absK Z) (CCmp.lit 100 : K) = decide (|Z| < 100) := by
  have : absK Z = |Z| := by
    unfold absK
    simp only [ccmp_lt, decide_eq_true_eq]
    split
    · rw [abs_of_neg ‹_›]
    · rw [abs_of_nonneg (not_lt.mp ‹_›)]
  rw [this]; simp

theorem lastEta_ge (n a : ℕ) : n + 2 ≤ lastEta n a := by unfold lastEta; dsimp only; split <;> split <;> omega

/-- **C51** (computed values, any scalar field, whatever the elementary functions are). The values that
`calculateEta` returns satisfy the three-term recurrence exactly, for every `Z`, and do not depend on
the uninitialised memory the result array starts from. -/
theorem C51_recurrence (F : Elem K) (n : ℕ) (hn : 2 ≤ n) (junk : ℕ → K) (Z : K) :
    (∀ i, i + 2 < n → calculateEta F n junk Z i
      = (2 * (i : K) + 1) * calculateEta F n junk Z (i + 1) + Z * calculateEta F n junk Z (i + 2)) ∧
    (∀ junk' : ℕ → K, ∀ i, i < n → calculateEta F n junk Z i = calculateEta F n junk' Z i) := by
  unfold calculateEta
  rw [small_iff]
  by_cases h : |Z| < 100
  · simp only [h, decide_true, if_true]
    set last := lastEta n (F.absInt Z)
    have hl : n + 2 ≤ last := lastEta_ge _ _
    obtain ⟨a, ha, ha1, hr⟩ := exists_downRec Z last
      (seriesLoop Z (2 * last - 1) 29 2 (CCmp.lit 1 / oddProduct last) (CCmp.lit 1 / oddProduct last))
      (seriesLoop Z (2 * last + 1) 29 2 (CCmp.lit 1 / oddProduct last / CCmp.lit ((2 * last + 1 : ℕ) : ℚ))
        (CCmp.lit 1 / oddProduct last / CCmp.lit ((2 * last + 1 : ℕ) : ℚ)))
    rw [← ha, ← ha1]
    constructor
    · intro i hi
      rw [downLoop_spec n Z a last hr, downLoop_spec n Z a last hr, downLoop_spec n Z a last hr,
        if_pos (by omega), if_pos (by omega), if_pos (by omega)]
      exact hr i (by omega)
    · intro junk' i hi
      rw [downLoop_spec n Z a last hr, downLoop_spec n Z a last hr, if_pos (by omega), if_pos (by omega)]
  · have hZ : Z ≠ 0 := by
      rintro rfl; simp at h
    simp only [h, decide_false, Bool.false_eq_true, if_false]
    constructor
    · intro i hi
      exact upLoop_rec hZ _ 2 _ le_rfl i (by omega) (by omega)
    · intro junk' i hi
      clear h
      have key : ∀ (k i0 : ℕ) (e e' : ℕ → K), 2 ≤ i0 → (∀ j, j < i0 → e j = e' j) →
          ∀ j, j < i0 + k → upLoop Z k i0 e j = upLoop Z k i0 e' j := by
        intro k
        induction k with
        | zero => intro i0 e e' _ he j hj; exact he j (by omega)
        | succ k ih =>
          intro i0 e e' h2 he j hj
          unfold upLoop
          refine ih (i0 + 1) _ _ (by omega) ?_ j (by omega)
          intro j hj
          rcases Nat.lt_succ_iff_lt_or_eq.mp hj with hj | rfl
          · rw [Function.update_of_ne hj.ne, Function.update_of_ne hj.ne, he j hj]
          · rw [Function.update_self, Function.update_self, he _ (by omega), he _ (by omega)]
      refine key (n - 2) 2 _ _ le_rfl ?_ i (by omega)
      intro j hj
      have : j = 0 ∨ j = 1 := by omega
      split <;> rcases this with rfl | rfl <;> simp [Function.update]

end field

/-! ### Exact arithmetic over ℝ -/

theorem oddProduct_eq (k : ℕ) : (oddProduct k : ℝ) = oddFact k := by
  induction k with
  | zero => simp [oddProduct, oddFact]
  | succ k ih => rw [oddFact_succ, oddProduct, ih, ccmp_lit]; push_cast; ring

theorem coef_succ (m q : ℕ) :
    coef m (q + 1) = coef m q * (1 / ((2 * (q : ℝ) + 2) * (2 * ((q : ℝ) + m) + 1))) := by
  have h1 := coef_m_succ m q
  have h2 := coef_shift m q
  have h3 : (0 : ℝ) < 2 * (q : ℝ) + 2 := by positivity
  have h4 : (0 : ℝ) < 2 * ((q : ℝ) + m) + 1 := by positivity
  rw [← h1, h2]; field_simp

theorem seriesLoop_spec (Z : ℝ) (m : ℕ) (hm : 1 ≤ m) (r q : ℕ) (acc : ℝ) :
    seriesLoop Z (2 * m - 1) r (2 * (q + 1)) (coef m q * Z ^ q) acc
      = acc + ∑ s ∈ Finset.range r, coef m (q + 1 + s) * Z ^ (q + 1 + s) := by
  induction r generalizing q acc with
  | zero => simp [seriesLoop]
  | succ r ih =>
    have e : coef m q * Z ^ q * (Z / CCmp.lit ((2 * (q + 1) * (2 * (q + 1) + (2 * m - 1)) : ℕ) : ℚ))
        = coef m (q + 1) * Z ^ (q + 1) := by
      rw [coef_succ, ccmp_lit, show 2 * (q + 1) + (2 * m - 1) = 2 * (q + m) + 1 by omega]
      push_cast
      rw [pow_succ]; ring
    unfold seriesLoop
    dsimp only
    rw [e, show 2 * (q + 1) + 2 = 2 * (q + 1 + 1) by ring, ih, Finset.sum_range_succ']
    simp only [add_zero]
    rw [add_comm (∑ s ∈ Finset.range r, coef m (q + 1 + (s + 1)) * Z ^ (q + 1 + (s + 1))), ← add_assoc]
    congr 1
    apply Finset.sum_congr rfl
    intro s _
    rw [show q + 1 + 1 + s = q + 1 + (s + 1) by ring]

theorem series_eq (Z : ℝ) (m : ℕ) (hm : 1 ≤ m) :
    seriesLoop Z (2 * m - 1) 29 2 (1 / oddFact m) (1 / oddFact m) = ∑ q ∈ Finset.range 30, coef m q * Z ^ q := by
  have h0 : coef m 0 = 1 / oddFact m := by simp [coef, evenFact]
  have := seriesLoop_spec Z m hm 29 0 (1 / oddFact m)
  rw [pow_zero, mul_one, h0] at this
  rw [show 2 = 2 * (0 + 1) by norm_num, this, Finset.sum_range_succ' _ 29, pow_zero, mul_one, h0, add_comm]
  simp only [zero_add, add_comm]

/-- The computed η for `|Z| < 100` is the downward recurrence started from two truncated series. -/
theorem small_closed (n : ℕ) (junk : ℕ → ℝ) (Z : ℝ) (h : |Z| < 100) :
    ∃ (k : ℕ) (a : ℕ → ℝ), k = lastEta n ⌊|Z|⌋₊ ∧ DownRec Z k a ∧
      a k = ∑ q ∈ Finset.range 30, coef k q * Z ^ q ∧
      a (k + 1) = ∑ q ∈ Finset.range 30, coef (k + 1) q * Z ^ q ∧
      ∀ i, i < n → calculateEta elemReal n junk Z i = a i := by
  set k := lastEta n ⌊|Z|⌋₊ with hk
  have hkn : n + 2 ≤ k := lastEta_ge _ _
  obtain ⟨a, ha, ha1, hr⟩ := exists_downRec Z k (∑ q ∈ Finset.range 30, coef k q * Z ^ q)
    (∑ q ∈ Finset.range 30, coef (k + 1) q * Z ^ q)
  refine ⟨k, a, rfl, hr, ha, ha1, ?_⟩
  intro i hi
  unfold calculateEta
  rw [small_iff]
  simp only [h, decide_true, if_true]
  have e1 : (CCmp.lit 1 : ℝ) / oddProduct k = 1 / oddFact k := by rw [oddProduct_eq, ccmp_lit]; simp
  have e2 : (1 : ℝ) / oddFact k / CCmp.lit ((2 * k + 1 : ℕ) : ℚ) = 1 / oddFact (k + 1) := by
    rw [oddFact_succ, ccmp_lit, div_div]; push_cast; rfl
  have e3 : lastEta n (elemReal.absInt Z) = k := rfl
  rw [e3, e1, e2, series_eq Z k (by omega), show 2 * k + 1 = 2 * (k + 1) - 1 by omega,
    series_eq Z (k + 1) (by omega), ← ha, ← ha1, downLoop_spec n Z a k hr, if_pos (by omega)]

/-- **C51** (large arguments). For `|Z| ≥ 100` every returned value is the exact η_i(Z). -/
theorem C51_large_exact (n : ℕ) (hn : 2 ≤ n) (junk : ℕ → ℝ) (Z : ℝ) (hZ : 100 ≤ |Z|) (i : ℕ) (hi : i < n) :
    calculateEta elemReal n junk Z i = eta i Z := by
  have hrec := (C51_recurrence elemReal n hn junk Z).1
  have hZ0 : Z ≠ 0 := by rintro rfl; norm_num at hZ
  have h01 : calculateEta elemReal n junk Z 0 = eta 0 Z ∧ calculateEta elemReal n junk Z 1 = eta 1 Z := by
    unfold calculateEta
    rw [small_iff]
    simp only [not_lt.mpr hZ, decide_false, Bool.false_eq_true, if_false, ccmp_lt]
    rw [upLoop_keep _ _ _ _ 0 (by omega), upLoop_keep _ _ _ _ 1 (by omega)]
    by_cases hp : 0 < Z
    · simp only [hp, decide_true, if_true]
      simp [Function.update, elemReal, eta0_nonneg hp.le, eta1_pos hp]
    · have hn : Z < 0 := lt_of_le_of_ne (not_lt.mp hp) hZ0
      simp only [hp, decide_false, Bool.false_eq_true, if_false]
      simp [Function.update, elemReal, eta0_neg hn.le, eta1_neg hn]
  induction i using Nat.strong_induction_on with
  | _ i ih =>
    match i, hi, ih with
    | 0, _, _ => exact h01.1
    | 1, _, _ => exact h01.2
    | i + 2, hi, ih =>
      have h1 := hrec i hi
      have h2 := eta_rec i Z
      rw [ih i (by omega) (by omega), ih (i + 1) (by omega) (by omega)] at h1
      have : Z * calculateEta elemReal n junk Z (i + 2) = Z * eta (i + 2) Z := by linarith
      exact mul_left_cancel₀ hZ0 this

/-- **C51** (the functions themselves). The exact η functions satisfy the recurrence, `η_m' = η_{m+1}/2`,
`η_0² - Z η_1² = 1`, and have the closed forms `cosh √Z`, `sinh √Z / √Z`, `cos √-Z`, `sin √-Z / √-Z`. -/
theorem C51_eta_relations (m : ℕ) (Z : ℝ) :
    eta m Z = (2 * m + 1) * eta (m + 1) Z + Z * eta (m + 2) Z ∧
    HasDerivAt (eta m) (eta (m + 1) Z / 2) Z ∧
    eta 0 Z ^ 2 - Z * eta 1 Z ^ 2 = 1 ∧
    (0 < Z → eta 0 Z = Real.cosh (Real.sqrt Z) ∧ eta 1 Z = Real.sinh (Real.sqrt Z) / Real.sqrt Z) ∧
    (Z < 0 → eta 0 Z = Real.cos (Real.sqrt (-Z)) ∧ eta 1 Z = Real.sin (Real.sqrt (-Z)) / Real.sqrt (-Z)) ∧
    eta 0 0 = 1 ∧ eta 1 0 = 1 :=
  ⟨eta_rec m Z, hasDerivAt_eta m Z, eta_wronskian Z, fun h => ⟨eta0_nonneg h.le, eta1_pos h⟩,
    fun h => ⟨eta0_neg h.le, eta1_neg h⟩, by simp [eta_zero_right, oddFact], by simp [eta_zero_right, oddFact]⟩

/-! ### Accuracy for `|Z| < 100` -/

/-- bound of the ratio of consecutive terms -/
noncomputable def cj (j : ℕ) : ℝ := 100 / ((2 * (j : ℝ) + 2) * (2 * (j : ℝ) + 53))

theorem cj_pos (j : ℕ) : 0 < cj j := by unfold cj; positivity

theorem ratio_le {z : ℝ} (hz : 0 ≤ z) (hz1 : z ≤ 100) {m : ℕ} (hm : z + 5 ≤ 4 * m) (j : ℕ) :
    z * (1 / ((2 * (j : ℝ) + 2) * (2 * ((j : ℝ) + m) + 1))) ≤ cj j := by
  unfold cj
  have hj : (0 : ℝ) ≤ j := Nat.cast_nonneg j
  have h3 : (0 : ℝ) < 2 * (j : ℝ) + 2 := by positivity
  have h4 : (0 : ℝ) < 2 * ((j : ℝ) + m) + 1 := by positivity
  rw [mul_one_div, div_le_div_iff₀ (by positivity) (by positivity)]
  have : z * (2 * (j : ℝ) + 53) ≤ 100 * (2 * ((j : ℝ) + m) + 1) := by nlinarith
  nlinarith

theorem term_le {z : ℝ} (hz : 0 ≤ z) (hz1 : z ≤ 100) {m : ℕ} (hm : z + 5 ≤ 4 * m) (q : ℕ) :
    coef m q * z ^ q ≤ coef m 0 * ∏ j ∈ Finset.range q, cj j := by
  induction q with
  | zero => simp
  | succ q ih =>
    rw [coef_succ, Finset.prod_range_succ, pow_succ]
    have h1 := ratio_le hz hz1 hm q
    have h2 : 0 ≤ coef m q * z ^ q := by have := coef_pos m q; positivity
    have h3 : 0 ≤ coef m 0 * ∏ j ∈ Finset.range q, cj j :=
      mul_nonneg (coef_pos m 0).le (Finset.prod_nonneg (fun j _ => (cj_pos j).le))
    calc _ = (coef m q * z ^ q) * (z * (1 / ((2 * (q : ℝ) + 2) * (2 * ((q : ℝ) + m) + 1)))) := by ring
      _ ≤ (coef m 0 * ∏ j ∈ Finset.range q, cj j) * cj q := by
          apply mul_le_mul ih h1 (by positivity) h3
      _ = _ := by ring

theorem prod_tail (p : ℕ) : ∏ j ∈ Finset.range (30 + p), cj j ≤ (∏ j ∈ Finset.range 30, cj j) * (1 / 60) ^ p := by
  induction p with
  | zero => simp
  | succ p ih =>
    rw [show 30 + (p + 1) = (30 + p) + 1 by ring, Finset.prod_range_succ, pow_succ, ← mul_assoc]
    have h0 : cj (30 + p) ≤ 1 / 60 := by
      unfold cj
      have hp : (0 : ℝ) ≤ p := Nat.cast_nonneg p
      push_cast
      rw [div_le_div_iff₀ (by positivity) (by norm_num)]
      nlinarith
    have h3 : 0 ≤ (∏ j ∈ Finset.range 30, cj j) * (1 / 60 : ℝ) ^ p :=
      mul_nonneg (Finset.prod_nonneg (fun j _ => (cj_pos j).le)) (by positivity)
    exact mul_le_mul ih h0 (cj_pos _).le h3

theorem prod30 : (∏ j ∈ Finset.range 30, cj j) * (60 / 59) ≤ 1 / 10 ^ 38 := by
  simp only [Finset.prod_range_succ, Finset.prod_range_zero, cj]
  norm_num

/-- The truncation error of the series. -/
theorem tail_le {Z : ℝ} (hZ : |Z| ≤ 100) {m : ℕ} (hm : |Z| + 5 ≤ 4 * m) :
    |∑ q ∈ Finset.range 30, coef m q * Z ^ q - eta m Z| ≤ 1 / 10 ^ 38 * eta m |Z| := by
  have hsum := hasSum_eta m Z
  have ht : HasSum (fun p => coef m (p + 30) * Z ^ (p + 30))
      (eta m Z - ∑ q ∈ Finset.range 30, coef m q * Z ^ q) :=
    (hasSum_nat_add_iff' (f := fun q => coef m q * Z ^ q) 30).mpr hsum
  set C := ∏ j ∈ Finset.range 30, cj j with hC
  have hC0 : 0 ≤ C := Finset.prod_nonneg (fun j _ => (cj_pos j).le)
  have hg : HasSum (fun p : ℕ => coef m 0 * C * (1 / 60 : ℝ) ^ p) (coef m 0 * C * (60 / 59)) := by
    have := (hasSum_geometric_of_lt_one (r := (1 / 60 : ℝ)) (by norm_num) (by norm_num)).mul_left (coef m 0 * C)
    rwa [show ((1 : ℝ) - 1 / 60)⁻¹ = 60 / 59 by norm_num] at this
  have hb : ∀ p, ‖coef m (p + 30) * Z ^ (p + 30)‖ ≤ coef m 0 * C * (1 / 60 : ℝ) ^ p := by
    intro p
    rw [norm_mul, Real.norm_eq_abs, abs_of_pos (coef_pos m _), norm_pow, Real.norm_eq_abs]
    have h1 := term_le (abs_nonneg Z) hZ hm (p + 30)
    have h2 := prod_tail p
    rw [add_comm 30 p] at h2
    calc _ ≤ _ := h1
      _ ≤ coef m 0 * (C * (1 / 60 : ℝ) ^ p) := mul_le_mul_of_nonneg_left h2 (coef_pos m 0).le
      _ = _ := by ring
  have h1 : ‖eta m Z - ∑ q ∈ Finset.range 30, coef m q * Z ^ q‖ ≤ coef m 0 * C * (60 / 59) :=
    ht.norm_le_of_bounded hg hb
  rw [abs_sub_comm, ← Real.norm_eq_abs]
  have h2 := prod30
  have h3 := coef_zero_le_eta m (abs_nonneg Z)
  have h4 := (coef_pos m 0).le
  calc _ ≤ _ := h1
    _ = coef m 0 * (C * (60 / 59)) := by ring
    _ ≤ coef m 0 * (1 / 10 ^ 38) := mul_le_mul_of_nonneg_left h2 h4
    _ ≤ eta m |Z| * (1 / 10 ^ 38) := mul_le_mul_of_nonneg_right h3 (by positivity)
    _ = _ := by ring

/-- The downward recurrence does not amplify an error relative to `η_i(|Z|)`. -/
theorem down_error {Z ρ : ℝ} {k : ℕ} {a : ℕ → ℝ} (hr : DownRec Z k a)
    (h0 : |a k - eta k Z| ≤ ρ * eta k |Z|) (h1 : |a (k + 1) - eta (k + 1) Z| ≤ ρ * eta (k + 1) |Z|) :
    ∀ d i, i + d = k → |a i - eta i Z| ≤ ρ * eta i |Z| ∧ |a (i + 1) - eta (i + 1) Z| ≤ ρ * eta (i + 1) |Z| := by
  intro d
  induction d with
  | zero => rintro i rfl; exact ⟨h0, h1⟩
  | succ d ih =>
    intro i hi
    obtain ⟨g1, g2⟩ := ih (i + 1) (by omega)
    refine ⟨?_, g1⟩
    have e1 := hr i (by omega)
    have e2 := eta_rec i Z
    have e3 := eta_rec i |Z|
    rw [e1, e2]
    have hi0 : (0 : ℝ) ≤ 2 * (i : ℝ) + 1 := by positivity
    calc |(2 * (i : ℝ) + 1) * a (i + 1) + Z * a (i + 2) - ((2 * i + 1) * eta (i + 1) Z + Z * eta (i + 2) Z)|
        = |(2 * (i : ℝ) + 1) * (a (i + 1) - eta (i + 1) Z) + Z * (a (i + 1 + 1) - eta (i + 1 + 1) Z)| := by
          congr 1; ring
      _ ≤ |(2 * (i : ℝ) + 1) * (a (i + 1) - eta (i + 1) Z)| + |Z * (a (i + 1 + 1) - eta (i + 1 + 1) Z)| :=
          abs_add_le _ _
      _ = (2 * (i : ℝ) + 1) * |a (i + 1) - eta (i + 1) Z| + |Z| * |a (i + 1 + 1) - eta (i + 1 + 1) Z| := by
          rw [abs_mul, abs_mul, abs_of_nonneg hi0]
      _ ≤ (2 * (i : ℝ) + 1) * (ρ * eta (i + 1) |Z|) + |Z| * (ρ * eta (i + 1 + 1) |Z|) := by gcongr
      _ = ρ * eta i |Z| := by rw [e3]; ring

theorem lastEta_large (n : ℕ) {z : ℝ} (hz : 0 ≤ z) (hz1 : z < 100) : z + 5 ≤ 4 * (lastEta n ⌊z⌋₊ : ℝ) := by
  have h1 : ⌊z⌋₊ < 100 := by
    rw [Nat.floor_lt hz]; exact_mod_cast hz1
  have h2 : ⌊z⌋₊ + 6 ≤ 4 * lastEta n ⌊z⌋₊ := by
    unfold lastEta; dsimp only; split <;> split <;> omega
  have h3 := Nat.lt_floor_add_one z
  have h4 : ((⌊z⌋₊ + 6 : ℕ) : ℝ) ≤ ((4 * lastEta n ⌊z⌋₊ : ℕ) : ℝ) := by exact_mod_cast h2
  push_cast at h4
  linarith

/-- **C80.** For every `Z` and every `i < n`, the value `calculateEta` returns differs from η_i(Z) by at
most `10⁻³⁸ · η_i(|Z|)` (in exact arithmetic: this bounds the truncation of the series and its
amplification by the recurrence; far below the precision of every scalar type the code is
instantiated with). -/
theorem C80_eta_accuracy (n : ℕ) (hn : 2 ≤ n) (junk : ℕ → ℝ) (Z : ℝ) (i : ℕ) (hi : i < n) :
    |calculateEta elemReal n junk Z i - eta i Z| ≤ 1 / 10 ^ 38 * eta i |Z| := by
  by_cases h : |Z| < 100
  · obtain ⟨k, a, hk, hr, ha, ha1, hc⟩ := small_closed n junk Z h
    have hm : |Z| + 5 ≤ 4 * (k : ℝ) := by rw [hk]; exact lastEta_large n (abs_nonneg Z) h
    have hm1 : |Z| + 5 ≤ 4 * ((k + 1 : ℕ) : ℝ) := by push_cast; linarith
    have h0 := tail_le h.le hm
    have h1 := tail_le h.le hm1
    rw [← ha] at h0
    rw [← ha1] at h1
    have hkn : n + 2 ≤ k := by rw [hk]; exact lastEta_ge _ _
    rw [hc i hi]
    exact (down_error hr h0 h1 (k - i) i (by omega)).1
  · rw [C51_large_exact n hn junk Z (not_lt.mp h) i hi, sub_self, abs_zero]
    have := eta_pos i (abs_nonneg Z)
    positivity

/-- C80 for non-negative `Z` is a relative error bound. -/
theorem C80_relative_nonneg (n : ℕ) (hn : 2 ≤ n) (junk : ℕ → ℝ) (Z : ℝ) (hZ : 0 ≤ Z) (i : ℕ) (hi : i < n) :
    |calculateEta elemReal n junk Z i - eta i Z| ≤ 1 / 10 ^ 38 * |eta i Z| := by
  have := C80_eta_accuracy n hn junk Z i hi
  rw [abs_of_nonneg hZ] at this
  rwa [abs_of_pos (eta_pos i hZ)]

/-- C80 as an absolute bound in the branch of the series. -/
theorem C80_absolute (n : ℕ) (hn : 2 ≤ n) (junk : ℕ → ℝ) (Z : ℝ) (i : ℕ) (hi : i < n) :
    |calculateEta elemReal n junk Z i - eta i Z| ≤ 1 / 10 ^ 33 := by
  by_cases h : |Z| < 100
  · refine (C80_eta_accuracy n hn junk Z i hi).trans ?_
    have hmono : ∀ m, eta m |Z| ≤ eta 0 |Z| := by
      intro m
      have s1 := hasSum_eta m |Z|
      have s0 := hasSum_eta 0 |Z|
      refine hasSum_le (fun q => ?_) s1 s0
      have : coef m q ≤ coef 0 q := by
        clear s1
        induction m with
        | zero => rfl
        | succ m ih =>
          refine le_trans ?_ ih
          have := coef_m_succ m q
          have := coef_pos (m + 1) q
          have : (0 : ℝ) ≤ 2 * ((q : ℝ) + m) := by positivity
          nlinarith
      gcongr
    have h0 : eta 0 |Z| ≤ 100000 := by
      rw [eta0_nonneg (abs_nonneg Z)]
      have hs : Real.sqrt |Z| ≤ 10 := by
        rw [Real.sqrt_le_left (by norm_num)]; linarith
      have hs0 := Real.sqrt_nonneg |Z|
      have h1 : Real.cosh (Real.sqrt |Z|) ≤ Real.exp (Real.sqrt |Z|) := by
        rw [Real.cosh_eq]
        have : Real.exp (-Real.sqrt |Z|) ≤ Real.exp (Real.sqrt |Z|) := Real.exp_le_exp.mpr (by linarith)
        linarith
      have h2 : Real.exp (Real.sqrt |Z|) ≤ Real.exp 10 := Real.exp_le_exp.mpr hs
      have h3 : Real.exp 10 = Real.exp 1 ^ 10 := by rw [← Real.exp_nat_mul]; norm_num
      have h4 : Real.exp 1 ≤ 3 := (Real.exp_one_lt_d9.trans (by norm_num)).le
      have h5 : Real.exp 1 ^ 10 ≤ 3 ^ 10 := by gcongr
      have : (3 : ℝ) ^ 10 ≤ 100000 := by norm_num
      linarith
    have := hmono i
    calc (1 : ℝ) / 10 ^ 38 * eta i |Z| ≤ 1 / 10 ^ 38 * 100000 := by gcongr; linarith
      _ = _ := by norm_num
  · rw [C51_large_exact n hn junk Z (not_lt.mp h) i hi, sub_self, abs_zero]
    positivity

/-! Both branches are inhabited: `Z = 1` uses the series, `Z = -400` the closed form; `n = 9` is the
value the code uses. -/
example : |calculateEta elemReal 9 (fun _ => 7) 1 8 - eta 8 1| ≤ 1 / 10 ^ 38 * |eta 8 1| :=
  C80_relative_nonneg 9 (by norm_num) _ 1 (by norm_num) 8 (by norm_num)
example : calculateEta elemReal 9 (fun _ => 7) (-400) 0 = Real.cos 20 := by
  rw [C51_large_exact 9 (by norm_num) _ _ (by norm_num) 0 (by norm_num), eta0_neg (by norm_num)]
  congr 1
  rw [show -(-400 : ℝ) = 20 ^ 2 by norm_num, Real.sqrt_sq (by norm_num)]
/-- The recurrence theorem also holds of a rational computation (arbitrary elementary functions). -/
example : calculateEta (K := ℚ) ⟨id, id, id, id, id, fun Z => ⌊|Z|⌋₊⟩ 9 (fun _ => 7) 5 0
    = 1 * calculateEta (K := ℚ) ⟨id, id, id, id, id, fun Z => ⌊|Z|⌋₊⟩ 9 (fun _ => 7) 5 1
      + 5 * calculateEta (K := ℚ) ⟨id, id, id, id, id, fun Z => ⌊|Z|⌋₊⟩ 9 (fun _ => 7) 5 2 := by
  have := (C51_recurrence (K := ℚ) ⟨id, id, id, id, id, fun Z => ⌊|Z|⌋₊⟩ 9 (by norm_num) (fun _ => 7) 5).1 0 (by norm_num)
  simpa using this

end Verif.Eta
