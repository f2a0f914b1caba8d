import Verif.Lemmas.FlMaj
import Verif.Spec.ElemFl
import Verif.Props.Eta
import Mathlib.Analysis.SpecialFunctions.Trigonometric.DerivHyp
import Mathlib.Analysis.SpecialFunctions.Trigonometric.Bounds
import Mathlib.Tactic.IntervalCases

/-!
# Roundoff of the η functions
-/
namespace Verif.Fp
open Verif.Eta

variable {u mu : ℝ} {fl : ℝ → ℝ}

theorem oddProduct_maj (hr : Rounding u mu fl) (hu : 0 ≤ u) (hmu : mu ≤ 1) : ∀ k : ℕ, Maj ((2 * k + 1) * u) (oddFact k) (oddProduct k : Fl fl).val (oddProduct k : ℝ)
  | 0 => by
    have h := Maj.litNat (fl := fl) hr hu (n := 1) (by norm_num) hmu
    have e : (oddProduct 0 : ℝ) = 1 := by simp [oddProduct]
    have e2 : oddFact 0 = 1 := by simp [oddFact]
    rw [e, e2]
    have e3 : (oddProduct 0 : Fl fl) = CCmp.lit ((1 : ℕ) : ℚ) := by simp [oddProduct]
    rw [e3]
    have h' := h.mono hu (show u ≤ (2 * ((0 : ℕ) : ℝ) + 1) * u by push_cast; linarith) le_rfl
    simpa using h'
  | k + 1 => by
    have h1 := oddProduct_maj hr hu hmu k
    have h2 := Maj.litNat (fl := fl) hr hu (n := 2 * k + 1) (by omega) hmu
    have p1 := oddFact_ge_one k
    have h3 := Maj.mul hr hu h1 h2 (by positivity) hu (hmu.trans (one_le_mul_of_one_le_of_one_le p1 (by push_cast; linarith [Nat.cast_nonneg (α := ℝ) k])))
    have e : (oddProduct (k + 1) : ℝ) = (oddProduct k : ℝ) * ((2 * k + 1 : ℕ) : ℝ) := by simp [oddProduct]
    have e2 : oddFact (k + 1) = oddFact k * ((2 * k + 1 : ℕ) : ℝ) := by rw [oddFact_succ]; push_cast; ring
    rw [e, e2]
    refine h3.mono (by positivity) (by push_cast; linarith) le_rfl

/-- One loop of the series. -/
theorem series_maj (hr : Rounding u mu fl) (hu : 0 ≤ u) (hu' : u ≤ 1 / 4) {Z : Fl fl} {Z' z : ℝ} (hZ : Maj 0 z Z.val Z') (hz : 1 ≤ z) (c : ℕ) {Q : ℝ} (hQ : 1 ≤ Q) (hmQ : mu * Q ≤ 1) (hmu0 : 0 ≤ mu) :
    ∀ (r q2 : ℕ) {t ma mf f' acc' : ℝ} {f acc : Fl fl}, 0 ≤ t → 0 < q2 → (∀ s < r, (((q2 + 2 * s) * (q2 + 2 * s + c) : ℕ) : ℝ) ≤ Q) → mu * Q ^ r ≤ mf →
      Maj t mf f.val f' → Maj (t + u) ma acc.val acc' →
      Maj (t + 4 * r * u + u) (seriesLoop z c r q2 mf ma) (seriesLoop Z c r q2 f acc).val (seriesLoop Z' c r q2 f' acc') := by
  intro r
  induction r with
  | zero =>
    intro q2 t ma mf f' acc' f acc ht hq _ _ _ ha
    simp only [seriesLoop]
    simpa using ha
  | succ r ih =>
    intro q2 t ma mf f' acc' f acc ht hq hb hm hf ha
    have n0 : 0 < q2 * (q2 + c) := Nat.mul_pos hq (by omega)
    have hmu : mu ≤ 1 := (le_mul_of_one_le_right hmu0 hQ).trans hmQ
    obtain ⟨n, hn⟩ : ∃ n, n = q2 * (q2 + c) := ⟨_, rfl⟩
    have hnQ : (n : ℝ) ≤ Q := by
      have := hb 0 (by omega); simp only [mul_zero, add_zero] at this; rw [hn]; exact this
    have n0' : (0 : ℝ) < n := by rw [hn]; exact_mod_cast n0
    have iQ : mu ≤ 1 / n := by
      rw [le_div_iff₀ n0']
      exact (mul_le_mul_of_nonneg_left hnQ hmu0).trans hmQ
    have zn : 1 / (n : ℝ) ≤ z / n := div_le_div_of_nonneg_right hz n0'.le
    have d := hZ.divLit hr hu hu' le_rfl (by rw [hn]; exact n0 : 0 < n) hmu (iQ.trans zn)
    rw [zero_add] at d
    have Q0 : 0 < Q := by linarith
    have hm' : mu * Q ^ r ≤ mf * (z / n) := by
      have h1 : mu * Q ^ r * Q ≤ mf := by rw [mul_assoc, ← pow_succ]; exact hm
      have h2 : mu * Q ^ r ≤ mf / n := by
        rw [le_div_iff₀ n0']
        exact (mul_le_mul_of_nonneg_left hnQ (by positivity)).trans h1
      refine h2.trans ?_
      rw [mul_div_assoc']
      exact div_le_div_of_nonneg_right (le_mul_of_one_le_right hf.nonneg hz) n0'.le
    have hmm : mu ≤ mf * (z / n) := (le_mul_of_one_le_right hmu0 (one_le_pow₀ hQ)).trans hm'
    have f1 := (Maj.mul hr hu hf d ht (by linarith) hmm).mono (t := t + 4 * u) (by linarith) (by linarith) le_rfl
    have a1 := Maj.add hr hu (ha.mono (t := t + 4 * u) (by linarith) (by linarith) le_rfl) f1 (by linarith) (by linarith [ha.nonneg])
    have step := ih (q2 + 2) (t := t + 4 * u) (by linarith) (by omega) (fun s hs => by
      have := hb (s + 1) (by omega)
      rwa [show q2 + 2 * (s + 1) = q2 + 2 + 2 * s by ring] at this) hm' f1 a1
    have e : ∀ (w g a : ℝ), seriesLoop w c (r + 1) q2 g a = seriesLoop w c r (q2 + 2) (g * (w / n)) (a + g * (w / n)) := by
      intro w g a
      rw [seriesLoop]; simp only [ccmp_lit, ← hn]; simp
    have e' : seriesLoop Z c (r + 1) q2 f acc = seriesLoop Z c r (q2 + 2) (f * (Z / CCmp.lit ((n : ℕ) : ℚ))) (acc + f * (Z / CCmp.lit ((n : ℕ) : ℚ))) := by
      rw [seriesLoop, ← hn]
    rw [e, e, e']
    refine step.mono (by positivity) (by push_cast; linarith) le_rfl

/-- The downward recurrence. -/
theorem down_maj (hr : Rounding u mu fl) (hu : 0 ≤ u) {Z : Fl fl} {Z' z : ℝ} (hZ : Maj 0 z Z.val Z') (hz : 1 ≤ z) (n : ℕ) (hmu1 : mu ≤ 1) :
    ∀ (k : ℕ) {t cur' next' : ℝ} {cur next : Fl fl} (e : ℕ → Fl fl) (e' : ℕ → ℝ), 0 ≤ t → mu ≤ 1 / oddFact (k + 1) →
      Maj t (eta k z) cur.val cur' → Maj t (eta (k + 1) z) next.val next' → ∀ i, i < k → i < n →
      Maj (t + 3 * k * u) (eta i z) (downLoop n Z k cur next e i).val (downLoop n Z' k cur' next' e' i) := by
  have keep : ∀ {K : Type} [Add K] [Sub K] [Mul K] [Div K] [Neg K] [Zero K] [CCmp K] (Y : K) (k i : ℕ) (c x : K) (e : ℕ → K), k ≤ i → downLoop n Y k c x e i = e i := by
    intro K _ _ _ _ _ _ _ Y k
    induction k with
    | zero => intros; rfl
    | succ k ih =>
      intro i c x e h
      unfold downLoop
      dsimp only
      rw [ih i _ _ _ (by omega)]
      split
      · rw [Function.update_of_ne (by omega)]
      · rfl
  intro k
  induction k with
  | zero => intros; omega
  | succ k ih =>
    intro t cur' next' cur next e e' ht hm hc hx i hi hin
    have z0 : 0 ≤ z := by linarith
    have k2 : oddFact (k + 1) ≤ oddFact (k + 1 + 1) := by
      rw [oddFact_succ (k + 1)]
      exact le_mul_of_one_le_right (oddFact_pos _).le (by push_cast; linarith [Nat.cast_nonneg (α := ℝ) k])
    have c1 : 1 / oddFact (k + 1) ≤ eta (k + 1) z := by
      have := coef_zero_le_eta (k + 1) z0
      simpa [coef, evenFact] using this
    have c2 : 1 / oddFact (k + 1 + 1) ≤ eta (k + 1 + 1) z := by
      have := coef_zero_le_eta (k + 1 + 1) z0
      simpa [coef, evenFact] using this
    have m2 : mu ≤ eta (k + 1 + 1) z := hm.trans c2
    have m1 : mu ≤ eta (k + 1) z := (hm.trans (one_div_le_one_div_of_le (oddFact_pos _) k2)).trans c1
    have e1 : 0 ≤ eta (k + 1) z := (eta_pos _ z0).le
    have e2 : 0 ≤ eta (k + 1 + 1) z := (eta_pos _ z0).le
    have l1 := Maj.litNat (fl := fl) hr hu (n := 2 * k + 1) (by omega) hmu1
    have kk : (1 : ℝ) ≤ ((2 * k + 1 : ℕ) : ℝ) := by push_cast; linarith [Nat.cast_nonneg (α := ℝ) k]
    have p1 := (Maj.mul hr hu l1 hc hu ht (m1.trans (le_mul_of_one_le_left e1 kk))).mono (t := t + 2 * u) (by linarith) (by linarith) le_rfl
    have p2 := (Maj.mul hr hu hZ hx le_rfl ht (m2.trans (le_mul_of_one_le_left e2 hz))).mono (t := t + 2 * u) (by linarith) (by linarith) le_rfl
    have s := Maj.add hr hu p1 p2 (by linarith) (by
      have := mul_nonneg z0 e2
      have := m1.trans (le_mul_of_one_le_left e1 kk)
      linarith)
    have er : ((2 * k + 1 : ℕ) : ℝ) * eta (k + 1) z + z * eta (k + 1 + 1) z = eta k z := by
      rw [eta_rec k z]; push_cast; ring
    rw [er] at s
    have s' := s.mono (t := t + 3 * u) (by linarith) (by linarith) le_rfl
    have mk : mu ≤ 1 / oddFact (k + 1) := hm.trans (one_div_le_one_div_of_le (oddFact_pos _) k2)
    have el : (CCmp.lit ((2 * k + 1 : ℕ) : ℚ) : ℝ) = ((2 * k + 1 : ℕ) : ℝ) := by rw [ccmp_lit]; push_cast; ring
    unfold downLoop
    dsimp only
    rw [el]
    rcases Nat.lt_succ_iff_lt_or_eq.mp hi with h | h
    · have := ih (t := t + 3 * u) (if k < n then Function.update e k (CCmp.lit ((2 * k + 1 : ℕ) : ℚ) * cur + Z * next) else e)
        (if k < n then Function.update e' k (((2 * k + 1 : ℕ) : ℝ) * cur' + Z' * next') else e') (by linarith) mk s' (hc.mono ht (by linarith) le_rfl) i h hin
      exact this.mono (by positivity) (by push_cast; linarith) le_rfl
    · subst h
      rw [keep Z i i _ _ _ le_rfl, keep Z' i i _ _ _ le_rfl, if_pos hin, if_pos hin, Function.update_self, Function.update_self]
      refine s'.mono (by linarith) ?_ le_rfl
      have : (0 : ℝ) ≤ i * u := by positivity
      push_cast; linarith

theorem partial_le_eta (m : ℕ) {z : ℝ} (hz : 0 ≤ z) : ∑ q ∈ Finset.range 30, coef m q * z ^ q ≤ eta m z :=
  sum_le_hasSum _ (fun q _ => mul_nonneg (coef_pos m q).le (pow_nonneg hz q)) (hasSum_eta m z)

theorem oddFact_mono {m n : ℕ} (h : m ≤ n) : oddFact m ≤ oddFact n := by
  induction n, h using Nat.le_induction with
  | base => exact le_rfl
  | succ n _ ih =>
    rw [oddFact_succ]
    exact ih.trans (le_mul_of_one_le_right (oddFact_pos _).le (by linarith [Nat.cast_nonneg (α := ℝ) n]))

theorem oddFact28 : oddFact 28 ≤ 10 ^ 37 := by
  unfold oddFact
  simp only [Finset.prod_range_succ, Finset.prod_range_zero]
  norm_num

theorem fl_small_iff (h100 : fl 100 = 100) (Z : Fl fl) : CCmp.lt (absK Z) (CCmp.lit 100 : Fl fl) = decide (|Z.val| < 100) := by
  have : (absK Z).val = |Z.val| := by
    unfold absK
    simp only [Fl.lt_def, Fl.zero_val, decide_eq_true_eq]
    split
    · rw [abs_of_neg ‹_›]; rfl
    · rw [abs_of_nonneg (not_lt.mp ‹_›)]
  simp only [Fl.lt_def, this, Fl.lit_val]
  norm_num [h100]

/-- The branch of the series. -/
theorem eta_small (hr : Rounding u mu fl) (hu : 0 ≤ u) (hu' : u ≤ 1 / 1000) (hmu0 : 0 ≤ mu) (hmu : mu ≤ 1 / 10 ^ 150) (h100 : fl 100 = 100) {a : ℝ} {F : Elem (Fl fl)} (hF : ElemFl a F)
    {n : ℕ} (hn : n ≤ 25) (junk : ℕ → Fl fl) (junk' : ℕ → ℝ) (Z : Fl fl) (hZ : |Z.val| < 100) {i : ℕ} (hi : i < n) :
    Maj (320 * u) (eta i (max |Z.val| 1)) (calculateEta F n junk Z i).val (calculateEta elemReal n junk' Z.val i) := by
  have hmu1 : mu ≤ 1 := hmu.trans (by norm_num)
  set z := max |Z.val| 1 with hz
  have z1 : 1 ≤ z := le_max_right _ _
  have z0 : 0 ≤ z := by linarith
  have hZM : Maj 0 z Z.val Z.val := Maj.exact (le_max_left _ _)
  unfold calculateEta
  rw [fl_small_iff h100, Eta.small_iff]
  simp only [hZ, decide_true, if_true]
  rw [hF.absInt Z hZ, show elemReal.absInt Z.val = ⌊|Z.val|⌋₊ from rfl]
  obtain ⟨k, hk⟩ : ∃ k, k = lastEta n ⌊|Z.val|⌋₊ := ⟨_, rfl⟩
  rw [← hk]
  have hkn : n + 2 ≤ k := by rw [hk]; exact lastEta_ge _ _
  have hk27 : k ≤ 27 := by
    have : ⌊|Z.val|⌋₊ < 100 := (Nat.floor_lt (abs_nonneg _)).mpr (by exact_mod_cast hZ)
    rw [hk]; unfold lastEta; dsimp only; split <;> split <;> omega
  have kR : (k : ℝ) ≤ 27 := by exact_mod_cast hk27
  have k0 : (0 : ℝ) ≤ k := Nat.cast_nonneg k
  have ku : (k : ℝ) * u ≤ 27 * u := mul_le_mul_of_nonneg_right kR hu
  have o0 := oddFact_pos k
  have o1 := oddFact_pos (k + 1)
  have o28 : oddFact (k + 1) ≤ 10 ^ 37 := (oddFact_mono (by omega)).trans oddFact28
  have o27 : oddFact k ≤ 10 ^ 37 := (oddFact_mono (by omega)).trans oddFact28
  have m37 : mu ≤ 1 / 10 ^ 37 := hmu.trans (by norm_num)
  have mo : mu ≤ 1 / oddFact k := m37.trans (one_div_le_one_div_of_le o0 o27)
  have mo1 : mu ≤ 1 / oddFact (k + 1) := m37.trans (one_div_le_one_div_of_le o1 o28)
  -- the starting values
  have hodd := (oddProduct_maj (fl := fl) hr hu hmu1 k).mono (t := 55 * u) (by positivity) (by linarith) le_rfl
  rw [oddProduct_eq] at hodd ⊢
  have l1 := Maj.litNat (fl := fl) hr hu (n := 1) (by norm_num) hmu1
  rw [Nat.cast_one] at l1
  have w0 := (Maj.div hr hu l1 hodd hu (by linarith) o0 (by linarith) mo).mono (t := 112 * u) (by linarith) (by linarith) le_rfl
  have e1 : (CCmp.lit 1 : ℝ) = 1 := by rw [ccmp_lit]; simp
  have n0 : 0 < 2 * k + 1 := by omega
  have eo : 1 / oddFact k / ((2 * k + 1 : ℕ) : ℝ) = 1 / oddFact (k + 1) := by rw [oddFact_succ, div_div]; push_cast; rfl
  have w1 := Maj.divLit hr hu (by linarith) w0 (by linarith) (n := 2 * k + 1) n0 hmu1 (by rw [eo]; exact mo1)
  have el : (CCmp.lit ((2 * k + 1 : ℕ) : ℚ) : ℝ) = ((2 * k + 1 : ℕ) : ℝ) := by rw [ccmp_lit]; push_cast; ring
  simp only [Nat.cast_one] at w0 w1 
  rw [e1, el, eo]
  rw [eo] at w1
  have hQ : (∀ c : ℕ, c ≤ 55 → ∀ s < 29, (((2 + 2 * s) * (2 + 2 * s + c) : ℕ) : ℝ) ≤ 6600) := by
    intro c hc s hs
    have : (2 + 2 * s) * (2 + 2 * s + c) ≤ 58 * 113 := Nat.mul_le_mul (by omega) (by omega)
    have : (((2 + 2 * s) * (2 + 2 * s + c) : ℕ) : ℝ) ≤ ((58 * 113 : ℕ) : ℝ) := by exact_mod_cast this
    refine this.trans (by norm_num)
  have mQ : mu * 6600 ≤ 1 := (mul_le_mul_of_nonneg_right hmu (by norm_num)).trans (by norm_num)
  have mQ29 : mu * 6600 ^ 29 ≤ 1 / 10 ^ 37 := (mul_le_mul_of_nonneg_right hmu (by norm_num)).trans (by norm_num)
  have s0 := series_maj hr hu (by linarith) hZM z1 (2 * k - 1) (Q := 6600) (by norm_num) mQ hmu0 29 2 (t := 112 * u) (by linarith) (by norm_num) (hQ _ (by omega))
    (mQ29.trans (one_div_le_one_div_of_le o0 o27)) w0 (w0.mono (by linarith) (by linarith) le_rfl)
  have s1 := series_maj hr hu (by linarith) hZM z1 (2 * k + 1) (Q := 6600) (by norm_num) mQ hmu0 29 2 (t := 112 * u + 3 * u) (by linarith) (by norm_num) (hQ _ (by omega))
    (mQ29.trans (one_div_le_one_div_of_le o1 o28)) w1 (w1.mono (by linarith) (by linarith) le_rfl)
  have hs0 : seriesLoop z (2 * k - 1) 29 2 (1 / oddFact k) (1 / oddFact k) ≤ eta k z := by rw [series_eq z k (by omega)]; exact partial_le_eta k z0
  have hs1 : seriesLoop z (2 * k + 1) 29 2 (1 / oddFact (k + 1)) (1 / oddFact (k + 1)) ≤ eta (k + 1) z := by
    rw [show 2 * k + 1 = 2 * (k + 1) - 1 by omega, series_eq z (k + 1) (by omega)]; exact partial_le_eta (k + 1) z0
  have c0 := s0.mono (t := 232 * u) (by positivity) (by push_cast; linarith) hs0
  have c1 := s1.mono (t := 232 * u) (by positivity) (by push_cast; linarith) hs1
  exact (down_maj hr hu hZM z1 n hmu1 k junk junk' (by linarith) mo1 c0 c1 i (by omega) hi).mono (by positivity) (by linarith) le_rfl

/-- The upward recurrence. -/
theorem up_maj (hr : Rounding u mu fl) (hu : 0 ≤ u) {Z : Fl fl} (hZ : 100 ≤ |Z.val|) {m : ℝ} (hm : 1 ≤ m) (hmu1 : mu ≤ 1) :
    ∀ (k i : ℕ) {t : ℝ} (e : ℕ → Fl fl) (e' : ℕ → ℝ), 0 ≤ t → 2 ≤ i → i + k ≤ 10 → (∀ j < i, Maj t m (e j).val (e' j)) →
      ∀ j < i + k, Maj (t + 4 * k * u) m (upLoop Z k i e j).val (upLoop Z.val k i e' j) := by
  intro k
  induction k with
  | zero =>
    intro i t e e' ht _ _ h j hj
    have := h j (by omega)
    simpa [upLoop] using this
  | succ k ih =>
    intro i t e e' ht hi hik h j hj
    have l1 := Maj.litNat (fl := fl) hr hu (n := 2 * i - 3) (by omega) hmu1
    have n1 : (1 : ℝ) ≤ ((2 * i - 3 : ℕ) : ℝ) := by exact_mod_cast (show 1 ≤ 2 * i - 3 by omega)
    have n2 : ((2 * i - 3 : ℕ) : ℝ) ≤ 17 := by exact_mod_cast (show 2 * i - 3 ≤ 17 by omega)
    have m0 : 0 ≤ m := by linarith
    have p1 := (Maj.mul hr hu l1 (h (i - 1) (by omega)) hu ht (by
      have := one_le_mul_of_one_le_of_one_le n1 hm
      linarith)).mono (t := t + 2 * u) (p := 17 * m) (by linarith) (by linarith) (mul_le_mul_of_nonneg_right n2 m0)
    have p2 := Maj.sub hr hu ((h (i - 2) (by omega)).mono (t := t + 2 * u) ht (by linarith) le_rfl) p1 (by linarith) (by linarith)
    have Z0 : Z.val ≠ 0 := by intro h0; rw [h0, abs_zero] at hZ; linarith
    have inv : Maj 0 (1 / 100) (1 / Z.val) (1 / Z.val) := Maj.exact (by
      rw [abs_div, abs_one]; exact one_div_le_one_div_of_le (by norm_num) hZ)
    have q := (p2.prod inv (by linarith)).mono (t := t + 3 * u) (p := m) (by linarith) (by linarith) (by linarith)
    rw [mul_one_div, mul_one_div] at q
    have q' := (q.round hr hu (by linarith) (by linarith)).mono (t := t + 4 * u) (by linarith) (by linarith) le_rfl
    have el : (CCmp.lit ((2 * i - 3 : ℕ) : ℚ) : ℝ) = ((2 * i - 3 : ℕ) : ℝ) := by rw [ccmp_lit]; simp
    have step := ih (i + 1) (t := t + 4 * u)
      (Function.update e i ((e (i - 2) - CCmp.lit ((2 * i - 3 : ℕ) : ℚ) * e (i - 1)) / Z))
      (Function.update e' i ((e' (i - 2) - ((2 * i - 3 : ℕ) : ℝ) * e' (i - 1)) / Z.val)) (by linarith) (by omega) (by omega) (by
        intro j hj
        rcases Nat.lt_succ_iff_lt_or_eq.mp hj with h1 | h1
        · rw [Function.update_of_ne (by omega), Function.update_of_ne (by omega)]
          exact (h j h1).mono ht (by linarith) le_rfl
        · subst h1
          rw [Function.update_self, Function.update_self]
          exact q') j (by omega)
    unfold upLoop
    rw [el]
    exact step.mono (by positivity) (by push_cast; linarith) le_rfl

theorem cosh_near {s d : ℝ} : |Real.cosh (s + d) - Real.cosh s| ≤ (Real.exp |d| - 1) * Real.cosh s ∧ |Real.sinh (s + d) - Real.sinh s| ≤ (Real.exp |d| - 1) * Real.cosh s := by
  have key : |Real.exp d - 1| ≤ Real.exp |d| - 1 ∧ |Real.exp (-d) - 1| ≤ Real.exp |d| - 1 := by
    have a := Real.add_one_le_exp d
    have b := Real.add_one_le_exp (-d)
    have c : Real.exp d * Real.exp (-d) = 1 := by rw [← Real.exp_add]; simp
    have p1 := Real.exp_pos d
    have p2 := Real.exp_pos (-d)
    have c2 : 2 ≤ Real.exp d + Real.exp (-d) := by nlinarith [sq_nonneg (Real.exp d - Real.exp (-d)), sq_nonneg (Real.exp d + Real.exp (-d))]
    rcases le_total 0 d with h | h
    · have h1 := Real.one_le_exp h
      have h2 : Real.exp (-d) ≤ 1 := Real.exp_le_one_iff.mpr (by linarith)
      rw [abs_of_nonneg h, abs_of_nonneg (by linarith), abs_of_nonpos (by linarith)]
      exact ⟨le_rfl, by linarith⟩
    · have h1 := Real.one_le_exp (show 0 ≤ -d by linarith)
      have h2 : Real.exp d ≤ 1 := Real.exp_le_one_iff.mpr h
      rw [abs_of_nonpos h, abs_of_nonpos (by linarith), abs_of_nonneg (by linarith)]
      exact ⟨by linarith, le_rfl⟩
  obtain ⟨k1, k2⟩ := key
  have e1 : Real.cosh (s + d) - Real.cosh s = Real.exp s / 2 * (Real.exp d - 1) + Real.exp (-s) / 2 * (Real.exp (-d) - 1) := by
    rw [Real.cosh_eq, Real.cosh_eq, neg_add, Real.exp_add, Real.exp_add]; ring
  have e2 : Real.sinh (s + d) - Real.sinh s = Real.exp s / 2 * (Real.exp d - 1) - Real.exp (-s) / 2 * (Real.exp (-d) - 1) := by
    rw [Real.sinh_eq, Real.sinh_eq, neg_add, Real.exp_add, Real.exp_add]; ring
  have e3 : (Real.exp |d| - 1) * Real.cosh s = Real.exp s / 2 * (Real.exp |d| - 1) + Real.exp (-s) / 2 * (Real.exp |d| - 1) := by rw [Real.cosh_eq]; ring
  have q1 : |Real.exp s / 2 * (Real.exp d - 1)| ≤ Real.exp s / 2 * (Real.exp |d| - 1) := by
    rw [abs_mul, abs_of_pos (by positivity)]; exact mul_le_mul_of_nonneg_left k1 (by positivity)
  have q2 : |Real.exp (-s) / 2 * (Real.exp (-d) - 1)| ≤ Real.exp (-s) / 2 * (Real.exp |d| - 1) := by
    rw [abs_mul, abs_of_pos (by positivity)]; exact mul_le_mul_of_nonneg_left k2 (by positivity)
  constructor
  · rw [e1, e3]; exact (abs_add_le _ _).trans (by linarith)
  · rw [e2, e3]; exact (abs_sub _ _).trans (by linarith)

/-- an elementary function of a computed argument -/
theorem Maj.elem {a t m x x' y : ℝ} (h : Maj t m x x') (hm : 1 ≤ m) (hy : |y - x| ≤ a * (Real.exp t * m)) : Maj (t + a) m y x' := by
  refine ⟨h.1, ?_⟩
  have e : y - x' = (y - x) + (x - x') := by ring
  rw [e]; refine (abs_add_le _ _).trans ?_
  have h1 := h.2
  have h5 : Real.exp t * m * (1 + a) ≤ Real.exp t * m * Real.exp a :=
    mul_le_mul_of_nonneg_left (by linarith [Real.add_one_le_exp a]) (mul_nonneg (Real.exp_pos t).le (by linarith))
  have : (Real.exp (t + a) - 1) * m = Real.exp t * m * Real.exp a - m := by rw [Real.exp_add]; ring
  rw [this]; linarith

/-- The branch of the elementary functions. -/
theorem eta_large (hr : Rounding u mu fl) (hu : 0 ≤ u) (hmu1 : mu ≤ 1) (h100 : fl 100 = 100) {a : ℝ} (ha' : a ≤ 1 / 1000) {F : Elem (Fl fl)} (hF : ElemFl a F)
    {n : ℕ} (hn2 : 2 ≤ n) (hn : n ≤ 10) (junk : ℕ → Fl fl) (Z : Fl fl) (hZ : 100 ≤ |Z.val|) {i : ℕ} (hi : i < n) :
    Maj (33 * u + (3 + Real.sqrt |Z.val|) * a) (Real.cosh (Real.sqrt |Z.val|)) (calculateEta F n junk Z i).val (eta i Z.val) := by
  set s := Real.sqrt |Z.val| with hs
  have ha := hF.a0
  have s10 : 10 ≤ s := Real.le_sqrt_of_sq_le (by norm_num; exact hZ)
  have s0 : 0 < s := by linarith
  set m := Real.cosh s with hm
  have m1 : 1 ≤ m := Real.one_le_cosh s
  have hnot : ¬ |Z.val| < 100 := not_lt.mpr hZ
  set t := (1 + s) * a with ht
  have t0 : 0 ≤ t := by positivity
  have sa0 : 0 ≤ s * a := by positivity
  -- everything after the first two values
  have fin : ∀ (c0 c1 : Fl fl), Maj (t + 2 * a + u) m c0.val (eta 0 Z.val) → Maj (t + 2 * a + u) m c1.val (eta 1 Z.val) →
      Maj (33 * u + (3 + s) * a) m (upLoop Z (n - 2) 2 (Function.update (Function.update junk 0 c0) 1 c1) i).val (eta i Z.val) := by
    intro c0 c1 h0 h1
    have step := up_maj hr hu hZ m1 hmu1 (n - 2) 2 (t := t + 2 * a + u) (Function.update (Function.update junk 0 c0) 1 c1) (fun i => eta i Z.val) (by linarith) le_rfl (by omega) (by
      intro j hj
      interval_cases j
      · simpa [Function.update] using h0
      · simpa [Function.update] using h1) i (by omega)
    have ex : upLoop Z.val (n - 2) 2 (fun i => eta i Z.val) i = eta i Z.val := by
      have Z0 : Z.val ≠ 0 := by intro h0; rw [h0, abs_zero] at hZ; linarith
      have gen : ∀ (k i : ℕ), 2 ≤ i → upLoop Z.val k i (fun i => eta i Z.val) = fun i => eta i Z.val := by
        intro k
        induction k with
        | zero => intros; rfl
        | succ k ih =>
          intro i hi
          unfold upLoop
          have : Function.update (fun i => eta i Z.val) i ((eta (i - 2) Z.val - (CCmp.lit ((2 * i - 3 : ℕ) : ℚ) : ℝ) * eta (i - 1) Z.val) / Z.val) = fun i => eta i Z.val := by
            obtain ⟨j, rfl⟩ : ∃ j, i = j + 2 := ⟨i - 2, by omega⟩
            have := eta_rec j Z.val
            simp only [show j + 2 - 2 = j by omega, show j + 2 - 1 = j + 1 by omega, show 2 * (j + 2) - 3 = 2 * j + 1 by omega]
            rw [this, ccmp_lit]
            push_cast
            rw [show ((2 * (j : ℝ) + 1) * eta (j + 1) Z.val + Z.val * eta (j + 2) Z.val - (2 * (j : ℝ) + 1) * eta (j + 1) Z.val) / Z.val = eta (j + 2) Z.val by field_simp; ring]
            exact Function.update_eq_self (j + 2) (fun i => eta i Z.val)
          rw [this]
          exact ih (i + 1) (by omega)
      rw [gen _ _ le_rfl]
    rw [ex] at step
    refine step.mono (by positivity) ?_ le_rfl
    have : ((n - 2 : ℕ) : ℝ) ≤ 8 := by exact_mod_cast (show n - 2 ≤ 8 by omega)
    have := mul_le_mul_of_nonneg_right this hu
    have e : t + 2 * a + u = (3 + s) * a + u := by rw [ht]; ring
    linarith
  -- the square root
  have root : ∀ x : Fl fl, x.val = |Z.val| → |(F.sqrt x).val - s| ≤ a * s := by
    intro x hx
    have := hF.sqrt x (by rw [hx]; exact hZ)
    rw [hx] at this; exact this
  have quo : ∀ (c y : Fl fl) (c' : ℝ), Maj t m c.val c' → |y.val - s| ≤ a * s → Maj (t + 2 * a + u) m (c / y).val (c' / s) := by
    intro c y c' h1 h2
    have hy : Maj a s y.val s := by
      refine ⟨by rw [abs_of_pos s0], h2.trans (mul_le_mul_of_nonneg_right ?_ s0.le)⟩
      linarith [Real.add_one_le_exp a]
    have q := (h1.quot hy t0 ha s0 (by linarith)).mono (t := t + 2 * a) (p := m) (by positivity) le_rfl (by
      rw [div_le_iff₀ s0]
      exact le_mul_of_one_le_right (by linarith) (by linarith))
    exact q.round hr hu (by linarith) (by linarith)
  have drift : ∀ {y : ℝ}, |y - s| ≤ a * s → Real.exp |y - s| - 1 ≤ Real.exp (s * a) - 1 := fun h => by
    have := Real.exp_le_exp.mpr (h.trans (le_of_eq (mul_comm a s))); linarith
  unfold calculateEta
  rw [fl_small_iff h100]
  simp only [hnot, decide_false, Bool.false_eq_true, if_false]
  rcases lt_or_ge 0 Z.val with hpos | hneg
  · have ez : |Z.val| = Z.val := abs_of_pos hpos
    simp only [Fl.lt_def, Fl.zero_val, hpos, decide_true, if_true]
    have hr1 := root Z ez.symm
    set y := F.sqrt Z with hy
    have cc := cosh_near (s := s) (d := y.val - s)
    rw [show s + (y.val - s) = y.val by ring] at cc
    have c1 : Maj (s * a) m (Real.cosh y.val) m := ⟨by rw [abs_of_pos (by linarith)], cc.1.trans (mul_le_mul_of_nonneg_right (drift hr1) (by linarith))⟩
    have c2 : Maj (s * a) m (Real.sinh y.val) (Real.sinh s) := ⟨by
      rw [abs_of_nonneg (Real.sinh_nonneg_iff.mpr s0.le)]; exact (Real.sinh_lt_cosh s).le, cc.2.trans (mul_le_mul_of_nonneg_right (drift hr1) (by linarith))⟩
    have b1 : Real.cosh y.val ≤ Real.exp (s * a) * m := by have := c1.bound; rwa [abs_of_pos (Real.cosh_pos _)] at this
    have d1 := c1.elem m1 ((hF.cosh y).trans (mul_le_mul_of_nonneg_left b1 ha))
    have d2 := c2.elem m1 ((hF.sinh y).trans (mul_le_mul_of_nonneg_left b1 ha))
    have et : s * a + a = t := by rw [ht]; ring
    rw [et] at d1 d2
    refine fin _ _ ?_ ?_
    · rw [eta0_nonneg hpos.le, ← ez, ← hs]
      exact d1.mono t0 (by linarith) le_rfl
    · rw [eta1_pos hpos, ← ez, ← hs]
      exact quo _ _ _ d2 hr1
  · have hn0 : Z.val < 0 := by
      rcases hneg.lt_or_eq with h | h
      · exact h
      · rw [h, abs_zero] at hZ; linarith
    have ez : |Z.val| = -Z.val := abs_of_neg hn0
    have hnp : ¬ 0 < Z.val := not_lt.mpr hneg
    simp only [Fl.lt_def, Fl.zero_val, hnp, decide_false, Bool.false_eq_true, if_false]
    have hr1 := root (-Z) (by rw [Fl.neg_val, ez])
    set y := F.sqrt (-Z) with hy
    have low : a * s ≤ (Real.exp (s * a) - 1) * m := by
      have h1 : s * a ≤ Real.exp (s * a) - 1 := by linarith [Real.add_one_le_exp (s * a)]
      have h2 : 0 ≤ Real.exp (s * a) - 1 := by linarith
      have := le_mul_of_one_le_right h2 m1
      linarith [mul_comm a s]
    have c1 : Maj (s * a) m (Real.cos y.val) (Real.cos s) := ⟨(Real.abs_cos_le_one s).trans m1, (Real.abs_cos_sub_cos_le y.val s).trans (hr1.trans low)⟩
    have c2 : Maj (s * a) m (Real.sin y.val) (Real.sin s) := ⟨(Real.abs_sin_le_one s).trans m1, (Real.abs_sin_sub_sin_le y.val s).trans (hr1.trans low)⟩
    have b1 : a ≤ a * (Real.exp (s * a) * m) := le_mul_of_one_le_right ha (one_le_mul_of_one_le_of_one_le (Real.one_le_exp sa0) m1)
    have d1 := c1.elem m1 ((hF.cos y).trans b1)
    have d2 := c2.elem m1 ((hF.sin y).trans b1)
    have et : s * a + a = t := by rw [ht]; ring
    rw [et] at d1 d2
    refine fin _ _ ?_ ?_
    · rw [eta0_neg hneg, ← ez, ← hs]
      exact d1.mono t0 (by linarith) le_rfl
    · rw [eta1_neg hn0, ← ez, ← hs]
      exact quo _ _ _ d2 hr1

theorem coef_le_zero (m q : ℕ) : coef m q ≤ coef 0 q := by
  induction m with
  | zero => exact le_rfl
  | succ m ih =>
    refine le_trans ?_ ih
    rw [← coef_m_succ m q]
    exact le_mul_of_one_le_right (coef_pos _ _).le (by linarith [Nat.cast_nonneg (α := ℝ) q, Nat.cast_nonneg (α := ℝ) m])

theorem eta_le_cosh (i : ℕ) {x z : ℝ} (hx : 0 ≤ x) (hxz : x ≤ z) : eta i x ≤ Real.cosh (Real.sqrt z) := by
  rw [← eta0_nonneg (hx.trans hxz)]
  refine hasSum_le (fun q => ?_) (hasSum_eta i x) (hasSum_eta 0 z)
  exact mul_le_mul (coef_le_zero i q) (pow_le_pow_left₀ hx hxz q) (pow_nonneg hx q) (coef_pos 0 q).le

end Verif.Fp
