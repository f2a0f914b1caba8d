import Verif.Lemmas.PeriodicTurn
import Verif.Lemmas.PeriodicExact

/-!
# C131: the whole search of a coupled problem, in exact arithmetic
-/
namespace Verif.Periodic
open Verif.Mesh Verif.YT Verif.Solver

variable {W : Sec ℝ → ℝ → ℝ} {secs : List (Sec ℝ)} {dmin dmax vlo vhi : ℝ}

/-- The two results of the pair search are in order. -/
theorem pair_le {det ddet : ℝ → ℝ} {eps : ℝ} {n : Nat} {lo hi : ℝ} {r : ℝ × ℝ} (hle : lo ≤ hi) (h : eigenvaluePair det ddet eps n lo hi = .ok r) : r.1 ≤ r.2 := by
  unfold eigenvaluePair at h
  obtain ⟨mid, hm, h⟩ := Outcome.bind_eq_ok.mp h
  have m := C31_result_in_bracket _ _ _ _ _ _ _ hle hm
  simp only at h
  split at h
  · simp only [Outcome.pure_eq, Outcome.ok.injEq] at h
    rw [← h]
  · obtain ⟨p, h1, h⟩ := Outcome.bind_eq_ok.mp h
    obtain ⟨q, h2, h⟩ := Outcome.bind_eq_ok.mp h
    simp only [Outcome.pure_eq, Outcome.ok.injEq] at h
    rw [← h]
    exact (C31_result_in_bracket _ _ _ _ _ _ _ m.1 h1).2.trans (C31_result_in_bracket _ _ _ _ _ _ _ m.2 h2).1

/-- A turn of the loop finds its pair. -/
theorem turn_pair {k : M2 ℝ} {P : ℕ → ℝ} (hP : PeriodicList W secs dmin dmax k P) {o : Oracle ℝ} (ho : ExactOracle W secs dmin dmax k o) {i : ℕ} (hi : 1 ≤ i) {zL zH eps : ℝ}
    (F : PairFacts W secs dmin dmax k P o i zL zH) (he : 0 ≤ eps) (he2 : eps ≤ 1 / 2) (M : Margin o P eps i) (Pk : Peak o P eps i)
    {highest l1 low high : ℝ} {p : ℝ × ℝ} {n : ℕ} (hl : 0 ≤ o.findLow i highest) (hh : 0 ≤ o.findHigh i highest) (a2 : o.findLow i l1 ≤ 0) (a3 : bisect' (o.findLow i) eps n l1 highest = .ok low)
    (a4 : bisect' (o.findHigh i) eps n low highest = .ok high) (a5 : eigenvaluePair o.det o.ddet eps n low high = .ok p) :
    |p.1 - P (i - 1)| ≤ eps * max 1 |P (i - 1)| ∧ |p.2 - P i| ≤ eps * max 1 |P i| ∧ p.1 ≤ p.2 := by
  have nl := bisect_increasing F.monoL he he2 F.lowZero a2 hl a3
  have l0 : low < P (i - 1) := by
    have := M zL (.inl F.lowZero) (i - 1)
    rw [abs_of_neg (sub_neg.mpr F.before)] at this
    linarith [(abs_le.mp nl).2]
  have l2 : ∀ m, m + 2 ≤ i → P m < low := fun m hm => by
    have := M zL (.inl F.lowZero) m
    rw [abs_of_pos (sub_pos.mpr (F.prev m hm))] at this
    linarith [(abs_le.mp nl).1]
  have mono := hP.mono (show i - 1 ≤ i by omega)
  have b1 : o.findHigh i low ≤ 0 := by
    rw [← F.highZero]
    exact F.monoH.monotone (by linarith [F.after])
  have nh := bisect_increasing F.monoH he he2 F.highZero b1 hh a4
  have h0 : P i < high := by
    have := M zH (.inr F.highZero) i
    rw [abs_of_pos (sub_pos.mpr F.after)] at this
    linarith [(abs_le.mp nh).1]
  have h2 : high < P (i + 1) := by
    have := M zH (.inr F.highZero) (i + 1)
    rw [abs_of_neg (sub_neg.mpr F.next)] at this
    linarith [(abs_le.mp nh).2]
  obtain ⟨c, c1, c2, c3, c4⟩ := Pk
  obtain ⟨up, down, rise⟩ := c4 low high ⟨zL, F.lowZero, nl⟩ ⟨zH, F.highZero, nh⟩
  have hcont : Continuous o.det := continuous_iff_continuousAt.mpr fun E => (ho.deriv E).continuousAt
  have res := pair_found he he2 hcont (p := P (i - 1)) (q := P i) (fun E hE => ?_) l0 h0 c1 c2 (fun E hE => F.left E hE.2 fun m hm => (l2 m hm).trans_le hE.1) (fun E hE => F.right E hE.1 (hE.2.trans_lt h2)) F.between up down rise c3 a5
  · exact ⟨res.1, res.2, pair_le (l0.le.trans (mono.trans h0.le)) a5⟩
  · rw [F.zeros]
    constructor
    · rintro ⟨m, rfl⟩
      rcases lt_trichotomy (m + 1) i with q | q | q
      · exact absurd (l2 m (by omega)) (not_lt.mpr hE.1)
      · left; rw [← q]; rfl
      · rcases Nat.lt_or_ge i m with q' | q'
        · exact absurd ((hE.2.trans_lt h2).trans_le (hP.mono (show i + 1 ≤ m by omega))) (lt_irrefl _)
        · right; rw [show m = i by omega]
    · rintro (q | q)
      · exact ⟨_, q⟩
      · exact ⟨_, q⟩

/-- The facts about the block before the loop. -/
theorem first_facts (h : BoundedProblem W secs dmin dmax vlo vhi) {k : M2 ℝ} (hk : k.a * k.d - k.b * k.c = 1) (g : RowSign k) (hA : isAnti k = false) {P : ℕ → ℝ} (hP : PeriodicList W secs dmin dmax k P) {o : Oracle ℝ}
    (ho : ExactOracle W secs dmin dmax k o) :
    StrictMono (o.findHigh 0) ∧ (∃ zH, o.findHigh 0 zH = 0 ∧ P 0 < zH ∧ zH < P 1) ∧ (∀ E < P 0, 0 < o.det E) ∧ (∀ E ∈ Set.Ioo (P 0) (P 1), o.det E < 0) ∧ (∀ E, o.det E = 0 ↔ ∃ n, E = P n) ∧
    (∀ E, o.minTheta E ≤ 0 → E ≤ P 0) := by
  obtain ⟨P', ⟨hP', hI⟩, -⟩ := C128_numbering h hk
  obtain rfl := PeriodicList.unique hP hP'
  obtain ⟨c, dc, s, ds, hF, hdet⟩ := ho.det
  have hfl := floquet h hk hF (0, 1)
  obtain ⟨f, hf⟩ : ∃ f : ℝ → ℝ, f = fun E => trK k (c E dmax) (dc E dmax) (s E dmax) (ds E dmax) := ⟨_, rfl⟩
  rw [← hf] at hfl
  have hcont : Continuous f := hfl.cont
  have hd : ∀ E, o.det E = 2 * (f E - 2) := fun E => by
    obtain ⟨-, -, -, -, -, -, -, -, -, -, -, det, -⟩ := monodromy_deriv h hF E
    rw [hdet E, perDet_eq hk det, hf]; ring
  have roots : ∀ E, f E = 2 ↔ ∃ n, E = P n := fun E => by
    rw [← hP.all E]
    obtain ⟨K, hK, ok⟩ := h.okOne E
    obtain ⟨-, -, -, -, -, -, -, -, -, -, -, det, -⟩ := monodromy_deriv h hF E
    rw [← perDet_zero hK h.lt ok k (hF.solC E) (hF.solS E) (hF.initC E) (hF.initS E), perDet_eq hk det, hf]
    constructor <;> intro q <;> linarith
  have u1 : ((1 : ℝ), (1 : ℝ)).1 ≠ 0 ∨ ((1 : ℝ), (1 : ℝ)).2 ≠ 0 := .inl one_ne_zero
  have u2 : ((1 : ℝ), (-1 : ℝ)).1 ≠ 0 ∨ ((1 : ℝ), (-1 : ℝ)).2 ≠ 0 := .inl one_ne_zero
  obtain ⟨lam, lm, hl, -⟩ := separated_numbers h hk u1
  obtain ⟨mu, mm, hm, -⟩ := separated_numbers h hk u2
  obtain ⟨-, -, C, -⟩ := hI _ u1 lam hl
  obtain ⟨-, -, C', -⟩ := hI _ u2 mu hm
  have gd := row_good g
  rw [hA, if_neg (by simp)] at gd
  have s1 : sgnL ((1 : ℝ), (1 : ℝ)) * sgnR (img k (1, 1)) = k.a + k.b := by simp [sgnL, sgnR, img, gd.1.ne']
  have s2 : sgnL ((1 : ℝ), (-1 : ℝ)) * sgnR (img k (1, -1)) = k.a - k.b := by simp [sgnL, sgnR, img, ← sub_eq_add_neg, gd.2.ne']
  have c0 := C hA (by rw [s1]; exact gd.1) 0
  have c1 := C' hA (by rw [s2]; exact gd.2) 0
  simp only [mul_zero, zero_add] at c0 c1
  have S1 := sep_of_problem h hk hF u1 hl
  rw [← hf, s1, decide_eq_true gd.1] at S1
  have e0 := S1.odd 0
  simp only [if_true, mul_zero, zero_add] at e0
  obtain ⟨m1, m2⟩ := strict_theta ho.first.mono ho.second.mono
  have none : ∀ x ∈ Set.Ioo (P 0) (P 1), f x ≠ 2 := fun x hx e => by
    obtain ⟨n, rfl⟩ := (roots x).mp e
    by_cases n1 : n ≤ 0
    · exact not_le.mpr hx.1 (hP.mono n1)
    · exact not_le.mpr hx.2 (hP.mono (by omega))
  have right := one_side hcont Set.ordConnected_Ioo none (x := lam 1) ⟨c0.2.1, c0.2.2.1⟩ (by linarith)
  have p01 : P 0 < P 1 := c0.2.1.trans c0.2.2.1
  have left : ∀ E < P 0, 2 < f E := fun E hE => by
    have none' : ∀ x ∈ Set.Iio (P 0), f x ≠ 2 := fun x hx e => by
      obtain ⟨n, rfl⟩ := (roots x).mp e
      exact not_le.mpr hx (hP.mono (Nat.zero_le n))
    by_contra hc
    have lt : f E < 2 := lt_of_le_of_ne (not_lt.mp hc) (none' E hE)
    have all := one_side hcont Set.ordConnected_Iio none' hE lt
    have e2 : f (P 0) = 2 := (roots _).mpr ⟨_, rfl⟩
    have nd : ¬ IsDoubleEigenvalue W secs dmin dmax k (P 0) := fun d => by
      rcases (hP.double 0).mp d with q | ⟨m, q, e⟩
      · exact p01.ne q
      · omega
    obtain ⟨d, dne, hd'⟩ := hfl.simple _ e2 nd
    have : IsLocalMax f (P 0) := by
      have : ∀ᶠ x in nhds (P 0), x ∈ Set.Iio (P 1) := Iio_mem_nhds p01
      filter_upwards [this] with x hx
      rw [e2]
      rcases lt_trichotomy x (P 0) with q | q | q
      · exact (all x q).le
      · rw [q, e2]
      · exact (right x ⟨q, hx⟩).le
    exact dne (this.hasDerivAt_eq_zero hd')
  have z1 := fun E => CountsEigenvalues.cmp ho.first hl 1 E
  have z2 := fun E => CountsEigenvalues.cmp ho.second hm 1 E
  have y1 := fun E => CountsEigenvalues.cmp ho.first hl 0 E
  have y2 := fun E => CountsEigenvalues.cmp ho.second hm 0 E
  simp only [Nat.cast_one, Nat.cast_zero] at z1 z2 y1 y2
  have w := fun E => find_zero o 0 E
  simp only [Nat.cast_zero, zero_add] at w
  refine ⟨fun x y hxy => ?_, ?_, fun E hE => ?_, fun E hE => ?_, fun E => ?_, fun E hE => ?_⟩
  · have := m2 hxy
    simp only [Oracle.findHigh]; linarith
  · rcases le_total (lam 1) (mu 1) with q | q
    · exact ⟨lam 1, le_antisymm ((w _).2.2.1.mpr ⟨(z1 _).1.mpr le_rfl, (z2 _).1.mpr q⟩) ((w _).2.2.2.mpr (.inl ((z1 _).2.mpr le_rfl))), c0.2.1, c0.2.2.1⟩
    · exact ⟨mu 1, le_antisymm ((w _).2.2.1.mpr ⟨(z1 _).1.mpr q, (z2 _).1.mpr le_rfl⟩) ((w _).2.2.2.mpr (.inr ((z2 _).2.mpr le_rfl))), c1.2.1, c1.2.2.1⟩
  · rw [hd]; linarith [left E hE]
  · rw [hd]; linarith [right E hE]
  · rw [hd, ← roots]
    constructor <;> intro q <;> linarith
  · simp only [Oracle.minTheta, stdMin, ccmp_lt, decide_eq_true_eq] at hE
    split_ifs at hE
    · exact ((y2 E).1.mp hE).trans c1.1
    · exact ((y1 E).1.mp hE).trans c0.1

/-- At the upper end of all brackets both functions of every number that is searched are not negative. -/
theorem at_highest (h : BoundedProblem W secs dmin dmax vlo vhi) {k : M2 ℝ} (hk : k.a * k.d - k.b * k.c = 1) (g : RowSign k) {P : ℕ → ℝ} (hP : PeriodicList W secs dmin dmax k P) {o : Oracle ℝ}
    (ho : ExactOracle W secs dmin dmax k o) {iMax : ℤ} {highest : ℝ} (hh : 0 ≤ o.findHigh (iMax + 1) highest) {i : ℕ} (hi : (i : ℤ) ≤ iMax + 1) : 0 ≤ o.findLow i highest ∧ 0 ≤ o.findHigh i highest := by
  have ci : (i : ℝ) ≤ iMax + 1 := by exact_mod_cast hi
  obtain ⟨⟨a1, a2⟩, b1, b2⟩ := theta_at h hk g hP ho.first ho.second i
  simp only [Oracle.findHigh, Oracle.findLow, ccmp_lit, Int.cast_add, Int.cast_one, Int.cast_natCast, Rat.cast_one, Rat.cast_intCast, Rat.cast_add, Rat.cast_natCast] at hh ⊢
  have mx : (i : ℝ) + 1 ≤ o.maxTheta highest := by linarith
  refine ⟨?_, by linarith⟩
  have ge : P i ≤ highest := by
    simp only [Oracle.maxTheta, stdMax, ccmp_lt, decide_eq_true_eq] at mx
    split_ifs at mx
    · exact ho.second.mono.le_iff_le.mp (b2.trans mx)
    · exact ho.first.mono.le_iff_le.mp (a2.trans mx)
  have t1 : (o.theta (P i)).1 ≤ (o.theta highest).1 := ho.first.mono.monotone ge
  have t2 : (o.theta (P i)).2 ≤ (o.theta highest).2 := ho.second.mono.monotone ge
  simp only [Oracle.minTheta, stdMin, ccmp_lt, decide_eq_true_eq]
  split_ifs <;> linarith

/-- What must hold of the problem up to the number `N`: no eigenvalue within the tolerance of an end of a bracket, and one clear peak of the determinant in each bracket. -/
def Clear (o : Oracle ℝ) (P : ℕ → ℝ) (eps : ℝ) (N : ℤ) : Prop :=
  ∀ i : ℕ, (i : ℤ) ≤ N → (i % 2 = if o.anti then 1 else 0) → Margin o P eps i ∧ (1 ≤ i → Peak o P eps i)

theorem helper_complete {Q : Type} (h : BoundedProblem W secs dmin dmax vlo vhi) {k : M2 ℝ} (hk : k.a * k.d - k.b * k.c = 1) (g : RowSign k) {P : ℕ → ℝ} (hP : PeriodicList W secs dmin dmax k P) {o : Oracle ℝ}
    (ho : ExactOracle W secs dmin dmax k o) {r : Range ℝ} {mk : ℝ → Bool → Q} {eps : ℝ} (he : 0 ≤ eps) (he2 : eps ≤ 1 / 2) (cl : Clear o P eps (r.iMax + 1)) (hr : r.eMin ≤ r.eMax) (h0 : -1 ≤ r.iMin) {fuel : Nat} {L : List (Int × ℝ × Q)}
    (hL : helper o r mk eps fuel = .ok L) (n : ℕ) (n1 : r.iMin ≤ n) (n2 : n < r.iMax) (w1 : r.eMin + 2 * eps * max 1 |P n| ≤ P n) (w2 : P n + 2 * eps * max 1 |P n| < r.eMax) :
    ∃ E, |E - P n| ≤ 2 * eps * max 1 |P n| ∧ (((n : ℤ), E, mk E false) ∈ L ∨ ((n : ℤ), E, mk E true) ∈ L ∨ ((n : ℤ) - 1, E, mk E true) ∈ L) := by
  obtain ⟨highest, hh1, hh2, all⟩ := helper_turns o r mk eps fuel L hr hL
  have pos : 0 ≤ eps * max 1 |P n| := mul_nonneg he (le_trans zero_le_one (le_max_left _ _))
  have ge : eps ≤ eps * max 1 |P n| := le_mul_of_one_le_right he (le_max_left _ _)
  have keep : ∀ (j : ℤ) (E : ℝ) (d : Bool), |E - P n| ≤ 2 * eps * max 1 |P n| → (j = n ∨ (d = true ∧ j = n - 1)) → r.rejects j E d = false := fun j E d q c => by
    obtain ⟨q1, q2⟩ := abs_le.mp q
    simp only [Range.rejects, ccmp_lt, ccmp_le, Bool.or_eq_false_iff, decide_eq_false_iff_not, not_lt, not_le]
    refine ⟨⟨⟨?_, ?_⟩, by linarith⟩, by linarith⟩
    · rcases c with c | ⟨c, c'⟩
      · split_ifs <;> simp <;> omega
      · rw [if_pos c]; simp; omega
    · rcases c with c | ⟨c, c'⟩ <;> omega
  rcases all n h0 (by omega) n1 n2 with ⟨hA, m0, F⟩ | ⟨i, i1, par, i2, mi, T⟩
  · have n0 : n = 0 := by omega
    subst n0
    obtain ⟨l1, high, E, ⟨a1, -⟩, a2, a3, a4, a5, a6⟩ := F
    have hA' : isAnti k = false := by rw [← ho.anti]; exact hA
    obtain ⟨m, ⟨zH, z0, z1, z2⟩, d1, d2, d3, -⟩ := first_facts h hk g hA' hP ho
    obtain ⟨M, -⟩ := cl 0 (by push_cast; omega) (by rw [hA]; simp)
    have hl := (at_highest h hk g hP ho hh2 (i := 0) (by push_cast; omega)).2
    simp only [Nat.cast_zero] at hl
    have nh := bisect_increasing m he he2 z0 a3 hl a4
    have b0 : P 0 < high := by
      have := M zH (.inr z0) 0
      rw [abs_of_pos (sub_pos.mpr z1)] at this
      linarith [(abs_le.mp nh).1]
    have b1 : high < P 1 := by
      have := M zH (.inr z0) 1
      rw [abs_of_neg (sub_neg.mpr z2)] at this
      linarith [(abs_le.mp nh).2]
    have l0 : l1 ≤ P 0 := by linarith
    have s0 : 0 ≤ o.det l1 := by
      rcases l0.lt_or_eq with q | q
      · exact (d1 _ q).le
      · exact ((d3 l1).mpr ⟨0, q⟩).ge
    have hcont : Continuous o.det := continuous_iff_continuousAt.mpr fun E => (ho.deriv E).continuousAt
    obtain ⟨z, hz, hz0, hzE⟩ := bisect_continuous he he2 (l0.trans b0.le) hcont.continuousOn (by
      have := d2 high ⟨b0, b1⟩
      rintro (⟨q, -⟩ | ⟨-, q⟩) <;> linarith) a5
    obtain ⟨m', rfl⟩ := (d3 z).mp hz0
    have : m' = 0 := by
      by_contra hc
      exact not_lt.mpr hz.2 (b1.trans_le (hP.mono (by omega)))
    subst this
    have tol : |E - P 0| ≤ 2 * eps * max 1 |P 0| := by linarith
    exact ⟨E, tol, .inl (a6 (keep 0 E false tol (.inl rfl)))⟩
  · have par' := par
    rw [ho.anti] at par'
    obtain ⟨zL, zH, F⟩ := pair_facts h hk g hP ho i1 par'
    obtain ⟨M, Pk⟩ := cl i i2 par
    obtain ⟨hl, hh⟩ := at_highest h hk g hP ho hh2 i2
    obtain ⟨l1, low, high, p, a1, a2, a3, a4, a5, a6, a7⟩ := T
    obtain ⟨t1, t2, t3⟩ := turn_pair hP ho i1 F he he2 M (Pk i1) hl hh a2 a3 a4 a5
    rcases mi with mi | mi
    · obtain rfl : i - 1 = n := by omega
      rcases lt_or_ge (p.2 - p.1) eps with q | q
      · have tol : |(p.1 + p.2) / 2 - P (i - 1)| ≤ 2 * eps * max 1 |P (i - 1)| := by
          obtain ⟨u1, u2⟩ := abs_le.mp t1
          exact abs_le.mpr ⟨by linarith, by linarith⟩
        refine ⟨_, tol, .inr (.inl ?_)⟩
        rw [mi]
        exact a6 q (keep _ _ true tol (.inl (by omega)))
      · have tol : |p.1 - P (i - 1)| ≤ 2 * eps * max 1 |P (i - 1)| := by linarith
        refine ⟨_, tol, .inl ?_⟩
        rw [mi]
        exact (a7 q).1 (keep _ _ false tol (.inl (by omega)))
    · obtain rfl : n = i := by omega
      rcases lt_or_ge (p.2 - p.1) eps with q | q
      · have tol : |(p.1 + p.2) / 2 - P n| ≤ 2 * eps * max 1 |P n| := by
          obtain ⟨u1, u2⟩ := abs_le.mp t2
          exact abs_le.mpr ⟨by linarith, by linarith⟩
        exact ⟨_, tol, .inr (.inr (a6 q (keep _ _ true tol (.inr ⟨rfl, rfl⟩))))⟩
      · have tol : |p.2 - P n| ≤ 2 * eps * max 1 |P n| := by linarith
        exact ⟨_, tol, .inl ((a7 q).2 (keep _ _ false tol (.inl rfl)))⟩

/-- Every entry is the eigenvalue with its number; a double entry is also the next one. The only exception is the entry with number 0, when the window starts above the lowest eigenvalue. -/
theorem helper_sound {Q : Type} (h : BoundedProblem W secs dmin dmax vlo vhi) {k : M2 ℝ} (hk : k.a * k.d - k.b * k.c = 1) (g : RowSign k) {P : ℕ → ℝ} (hP : PeriodicList W secs dmin dmax k P) {o : Oracle ℝ}
    (ho : ExactOracle W secs dmin dmax k o) {r : Range ℝ} {mk : ℝ → Bool → Q} {eps : ℝ} (he : 0 ≤ eps) (he2 : eps ≤ 1 / 2) (cl : Clear o P eps (r.iMax + 1)) (hr : r.eMin ≤ r.eMax) (h0 : -1 ≤ r.iMin) (hM : -1 ≤ r.iMax) {fuel : Nat} {L : List (Int × ℝ × Q)}
    (hL : helper o r mk eps fuel = .ok L) : ∀ x ∈ L,
      (∃ j : ℕ, x.1 = j ∧ |x.2.1 - P j| ≤ 2 * eps * max 1 |P j| ∧ (x.2.2 = mk x.2.1 false ∨ (x.2.2 = mk x.2.1 true ∧ |x.2.1 - P (j + 1)| ≤ 2 * eps * max 1 |P (j + 1)|))) ∨
      (isAnti k = false ∧ r.iMin ≤ 1 ∧ P 0 < r.eMin ∧ x.1 = 0 ∧ x.2.2 = mk x.2.1 false) := by
  obtain ⟨highest, hh1, hh2, all⟩ := helper_from o r mk eps fuel L hr hL h0
  intro x hx
  rcases all x hx with ⟨hA, im, l1, high, E, ⟨a1, a1'⟩, a2, a3, a4, a5, rfl⟩ | ⟨i, i1, par, i2, T⟩
  · have hA' : isAnti k = false := by rw [← ho.anti]; exact hA
    rcases lt_or_ge (P 0) r.eMin with lt | le
    · exact .inr ⟨hA', im, lt, rfl, rfl⟩
    obtain ⟨m, ⟨zH, z0, z1, z2⟩, d1, d2, d3, -⟩ := first_facts h hk g hA' hP ho
    obtain ⟨M, -⟩ := cl 0 (by push_cast; omega) (by rw [hA]; simp)
    have hl := (at_highest h hk g hP ho hh2 (i := 0) (by push_cast; omega)).2
    simp only [Nat.cast_zero] at hl
    have nh := bisect_increasing m he he2 z0 a3 hl a4
    have b0 : P 0 < high := by
      have := M zH (.inr z0) 0
      rw [abs_of_pos (sub_pos.mpr z1)] at this
      linarith [(abs_le.mp nh).1]
    have b1 : high < P 1 := by
      have := M zH (.inr z0) 1
      rw [abs_of_neg (sub_neg.mpr z2)] at this
      linarith [(abs_le.mp nh).2]
    have l0 : l1 ≤ P 0 := by linarith
    have s0 : 0 ≤ o.det l1 := by
      rcases l0.lt_or_eq with q | q
      · exact (d1 _ q).le
      · exact ((d3 l1).mpr ⟨0, q⟩).ge
    have hcont : Continuous o.det := continuous_iff_continuousAt.mpr fun E => (ho.deriv E).continuousAt
    obtain ⟨z, hz, hz0, hzE⟩ := bisect_continuous he he2 (l0.trans b0.le) hcont.continuousOn (by
      have := d2 high ⟨b0, b1⟩
      rintro (⟨q, -⟩ | ⟨-, q⟩) <;> linarith) a5
    obtain ⟨m', rfl⟩ := (d3 z).mp hz0
    have : m' = 0 := by
      by_contra hc
      exact not_lt.mpr hz.2 (b1.trans_le (hP.mono (by omega)))
    subst this
    have pos : 0 ≤ eps * max 1 |P 0| := mul_nonneg he (le_trans zero_le_one (le_max_left _ _))
    exact .inl ⟨0, rfl, show |E - P 0| ≤ _ by linarith, .inl rfl⟩
  · left
    have par' := par
    rw [ho.anti] at par'
    obtain ⟨zL, zH, F⟩ := pair_facts h hk g hP ho i1 par'
    obtain ⟨M, Pk⟩ := cl i i2 par
    obtain ⟨hl, hh⟩ := at_highest h hk g hP ho hh2 i2
    obtain ⟨l1, low, high, p, a1, a2, a3, a4, a5, a6⟩ := T
    obtain ⟨t1, t2, t3⟩ := turn_pair hP ho i1 F he he2 M (Pk i1) hl hh a2 a3 a4 a5
    have pos : ∀ n, 0 ≤ eps * max 1 |P n| := fun n => mul_nonneg he (le_trans zero_le_one (le_max_left _ _))
    have ge : ∀ n, eps ≤ eps * max 1 |P n| := fun n => le_mul_of_one_le_right he (le_max_left _ _)
    obtain ⟨u1, u2⟩ := abs_le.mp t1
    obtain ⟨v1, v2⟩ := abs_le.mp t2
    have p1 := pos (i - 1); have p2 := pos i; have g1 := ge (i - 1); have g2 := ge i
    rcases a6 with ⟨q, rfl⟩ | ⟨q, rfl | rfl⟩
    · refine ⟨i - 1, by simp only; omega, abs_le.mpr ⟨by simp only; linarith, by simp only; linarith⟩, .inr ⟨rfl, ?_⟩⟩
      rw [show i - 1 + 1 = i by omega]
      exact abs_le.mpr ⟨by simp only; linarith, by simp only; linarith⟩
    · exact ⟨i - 1, by simp only; omega, abs_le.mpr ⟨by simp only; linarith, by simp only; linarith⟩, .inl rfl⟩
    · exact ⟨i, rfl, abs_le.mpr ⟨by simp only; linarith, by simp only; linarith⟩, .inl rfl⟩

theorem double_stop (st : ℝ → Bool) : ∀ (f : ℕ) (x y : ℝ), doubleWhile st f x = .ok y → st y = true := by
  intro f
  induction f with
  | zero => intro x y e; unfold doubleWhile at e; split_ifs at e with c; · cases e; exact c
  | succ f ih => intro x y e; unfold doubleWhile at e; split_ifs at e with c; · cases e; exact c
                 · exact ih _ _ e

theorem double_power (st : ℝ → Bool) : ∀ (f : ℕ) (x y : ℝ), doubleWhile st f x = .ok y → ∃ m : ℕ, y = x * 2 ^ m := by
  intro f
  induction f with
  | zero =>
    intro x y e
    unfold doubleWhile at e
    split_ifs at e
    cases e
    exact ⟨0, by simp⟩
  | succ f ih =>
    intro x y e
    unfold doubleWhile at e
    split_ifs at e
    · cases e
      exact ⟨0, by simp⟩
    · obtain ⟨m, hm⟩ := ih _ _ e
      refine ⟨m + 1, ?_⟩
      rw [hm, show (CCmp.lit 2 : ℝ) = 2 by simp]
      ring

/-- **C131, by index.** `eigenvaluesByIndex(iMin, iMax)` of a coupled problem in exact arithmetic, with `RowSign`, exact angles, the exact determinant and its derivative. If the problem is clear (`Clear`) up to `iMax + 1` and no requested eigenvalue is within the tolerance of a power of two (the ends of the window are powers of two), then every requested eigenvalue is in the result, by itself or in a double entry, and every entry of the result is the eigenvalue with its number; a double entry is also the next one. -/
theorem C131_by_index (h : BoundedProblem W secs dmin dmax vlo vhi) {k : M2 ℝ} (hk : k.a * k.d - k.b * k.c = 1) (g : RowSign k) {P : ℕ → ℝ} (hP : PeriodicList W secs dmin dmax k P) {o : Oracle ℝ}
    (ho : ExactOracle W secs dmin dmax k o) (iMin iMax : ℕ) (cl : Clear o P (1 / 10 ^ 8) (iMax + 1))
    (pow : ∀ n, iMin ≤ n → n < iMax → ∀ m : ℕ, 2 / 10 ^ 8 * max 1 |P n| < |P n - 2 ^ m| ∧ 2 / 10 ^ 8 * max 1 |P n| < |P n + 2 ^ m|) {fuel : Nat} {res : List (Int × ℝ × Int)} (hres : byIndex o multiplicity iMin iMax fuel = .ok res) :
    (∀ n, iMin ≤ n → n < iMax → ∃ E, |E - P n| ≤ 2 / 10 ^ 8 * max 1 |P n| ∧ (((n : ℤ), E, 1) ∈ res ∨ ((n : ℤ), E, 2) ∈ res ∨ ((n : ℤ) - 1, E, 2) ∈ res)) ∧
    (∀ x ∈ res, ∃ j : ℕ, x.1 = j ∧ |x.2.1 - P j| ≤ 2 / 10 ^ 8 * max 1 |P j| ∧ (x.2.2 = 1 ∨ (x.2.2 = 2 ∧ |x.2.1 - P (j + 1)| ≤ 2 / 10 ^ 8 * max 1 |P (j + 1)|))) := by
  unfold byIndex at hres
  obtain ⟨eMin, e1, hres⟩ := Outcome.bind_eq_ok.mp hres
  obtain ⟨eMax, e2, hres⟩ := Outcome.bind_eq_ok.mp hres
  have lit : (CCmp.lit (1 / 100000000) : ℝ) = 1 / 10 ^ 8 := by norm_num
  rw [lit] at hres
  obtain ⟨m1, q1⟩ := double_power _ _ _ _ e1
  obtain ⟨m2, q2⟩ := double_power _ _ _ _ e2
  simp only [ccmp_lit, Rat.cast_neg, Rat.cast_one, neg_one_mul, one_mul] at q1 q2
  have p1 : (0 : ℝ) < 2 ^ m1 := by positivity
  have p2 : (0 : ℝ) < 2 ^ m2 := by positivity
  have hle : eMin ≤ eMax := by rw [q1, q2]; linarith
  have e8 : ∀ n, 2 * (1 / 10 ^ 8) * max 1 |P n| = 2 / 10 ^ 8 * max 1 |P n| := fun n => by ring
  constructor
  · intro n n1 n2
    have win := (C130_window_by_index h hk g hP o ho.first ho.second iMin iMax fuel eMin eMax e1 e2 n n1 n2).2 false
    simp only [Range.rejects, ccmp_lt, ccmp_le, Bool.or_eq_false_iff, decide_eq_false_iff_not, not_lt, not_le] at win
    obtain ⟨⟨-, w1⟩, w2⟩ := win
    have a1 := (pow n n1 n2 m1).2
    have a2 := (pow n n1 n2 m2).1
    rw [q1] at w1
    rw [q2] at w2
    rw [abs_of_nonneg (a := P n + 2 ^ m1) (by linarith)] at a1
    rw [abs_of_neg (a := P n - 2 ^ m2) (by linarith)] at a2
    obtain ⟨E, t, r⟩ := helper_complete h hk g hP ho (by norm_num) (by norm_num) (mk := multiplicity) (cl := cl) hle (by simp only; omega) hres n (by simp only; omega) (by simp only; omega)
      (by simp only; rw [e8, q1]; linarith) (by simp only; rw [e8, q2]; linarith)
    exact ⟨E, by rw [← e8]; exact t, r⟩
  · intro x hx
    rcases helper_sound h hk g hP ho (by norm_num) (by norm_num) (mk := multiplicity) (cl := cl) hle (by simp only; omega) (by simp only; omega) hres x hx with ⟨j, a, b, c⟩ | ⟨hA, im, lt, -, -⟩
    · exact ⟨j, a, by rw [← e8]; exact b, c.imp id fun c => ⟨c.1, by rw [← e8]; exact c.2⟩⟩
    · exfalso
      have s1 := double_stop _ _ _ _ e1
      have mx : max ((iMin : ℤ) - 2) 0 = 0 := by simp only at im; omega
      rw [mx] at s1
      simp only [ccmp_lt, ccmp_lit, Bool.not_eq_true', decide_eq_false_iff_not, not_lt, Int.cast_zero, Rat.cast_zero] at s1
      exact not_le.mpr lt ((first_facts h hk g hA hP ho).2.2.2.2.2 eMin s1)

/-- **C131, by energy.** `eigenvalues(eMin, eMax)` of a coupled problem in exact arithmetic, with the same hypotheses: every eigenvalue in the window, away from its ends by the tolerance, is in the result, and every entry of the result is the eigenvalue with its number, with one exception: an entry with number 0 when the window starts above the eigenvalue with number 0 (see `C131_spurious`). `trunc` is the conversion to `int`, with the values it must have: the integral part. -/
theorem C131_by_energy (h : BoundedProblem W secs dmin dmax vlo vhi) {k : M2 ℝ} (hk : k.a * k.d - k.b * k.c = 1) (g : RowSign k) {P : ℕ → ℝ} (hP : PeriodicList W secs dmin dmax k P) {o : Oracle ℝ}
    (ho : ExactOracle W secs dmin dmax k o) (pos : ∀ E, -1 < (o.theta E).1 ∧ -1 < (o.theta E).2)
    (trunc : ℝ → Option ℤ) (ht : ∀ x i, trunc x = some i → (0 ≤ x → i ≤ x ∧ x < i + 1) ∧ (x ≤ 0 → x ≤ i ∧ (i : ℝ) < x + 1))
    (eMin eMax : ℝ) (hle : eMin ≤ eMax) (cl : ∀ N : ℕ, N ≤ max 0 (o.maxTheta eMax) → Clear o P (1 / 10 ^ 8) (N + 2)) {fuel : Nat} {res : List (Int × ℝ × Int)} (hres : byEnergy trunc o multiplicity eMin eMax fuel = .ok res) :
    (∀ n, eMin + 2 / 10 ^ 8 * max 1 |P n| ≤ P n → P n + 2 / 10 ^ 8 * max 1 |P n| < eMax → ∃ E, |E - P n| ≤ 2 / 10 ^ 8 * max 1 |P n| ∧ (((n : ℤ), E, 1) ∈ res ∨ ((n : ℤ), E, 2) ∈ res ∨ ((n : ℤ) - 1, E, 2) ∈ res)) ∧
    (∀ x ∈ res, (∃ j : ℕ, x.1 = j ∧ |x.2.1 - P j| ≤ 2 / 10 ^ 8 * max 1 |P j| ∧ (x.2.2 = 1 ∨ (x.2.2 = 2 ∧ |x.2.1 - P (j + 1)| ≤ 2 / 10 ^ 8 * max 1 |P (j + 1)|))) ∨
      (isAnti k = false ∧ P 0 < eMin ∧ x.1 = 0 ∧ x.2.2 = 1)) := by
  have lit : (CCmp.lit (1 / 100000000) : ℝ) = 1 / 10 ^ 8 := by norm_num
  have e8 : ∀ n, 2 * (1 / 10 ^ 8) * max 1 |P n| = 2 / 10 ^ 8 * max 1 |P n| := fun n => by ring
  unfold byEnergy at hres
  split at hres
  · rename_i a b ea eb
    rw [lit] at hres
    have above : ∀ x : ℝ, ∀ i : ℤ, -1 < x → trunc x = some i → 0 ≤ i := fun x i hx hi => by
      obtain ⟨c1, c2⟩ := ht x i hi
      have : (-1 : ℝ) < i := by
        rcases le_total 0 x with q | q
        · linarith [c1 q]
        · linarith [c2 q]
      have : -1 < i := by exact_mod_cast this
      omega
    have a0 : 0 ≤ a := above _ _ (by
      simp only [Oracle.minTheta, stdMin, ccmp_lt]
      split_ifs <;> linarith [(pos eMin).1, (pos eMin).2]) ea
    have b0 : 0 ≤ b := above _ _ (by
      simp only [Oracle.maxTheta, stdMax, ccmp_lt]
      split_ifs <;> linarith [(pos eMax).1, (pos eMax).2]) eb
    obtain ⟨b', rfl⟩ : ∃ b' : ℕ, b = b' := ⟨b.toNat, by omega⟩
    have cl' : Clear o P (1 / 10 ^ 8) ((b' : ℤ) + 1 + 1) := by
      refine cl b' ?_
      obtain ⟨c1, c2⟩ := ht _ _ eb
      simp only [Int.cast_natCast] at c1 c2
      rcases le_total 0 (o.maxTheta eMax) with q | q
      · exact (c1 q).1.trans (le_max_right _ _)
      · have : (b' : ℝ) < 1 := by linarith [(c2 q).2]
        have : b' < 1 := by exact_mod_cast this
        obtain rfl : b' = 0 := by omega
        simp
    constructor
    · intro n w1 w2
      have tp : 0 ≤ 2 / 10 ^ 8 * max 1 |P n| := mul_nonneg (by norm_num) (le_trans zero_le_one (le_max_left _ _))
      have win := (C130_window_by_energy h hk g hP o ho.first ho.second pos trunc ht eMin eMax a b' ea eb n (by linarith) (by linarith)).2 false
      simp only [Range.rejects, ccmp_lt, ccmp_le, Bool.or_eq_false_iff, decide_eq_false_iff_not, not_lt, not_le, Bool.false_eq_true, if_false] at win
      obtain ⟨E, t, r⟩ := helper_complete h hk g hP ho (by norm_num) (by norm_num) (mk := multiplicity) (cl := cl') hle (by simp only; omega) hres n win.1.1.1 win.1.1.2
        (by simp only; rw [e8]; exact w1) (by simp only; rw [e8]; exact w2)
      exact ⟨E, by rw [← e8]; exact t, r⟩
    · intro x hx
      rcases helper_sound h hk g hP ho (by norm_num) (by norm_num) (mk := multiplicity) (cl := cl') hle (by simp only; omega) (by simp only; omega) hres x hx with ⟨j, a, b, c⟩ | ⟨hA, im, lt, q1, q2⟩
      · exact .inl ⟨j, a, by rw [← e8]; exact b, c.imp id fun c => ⟨c.1, by rw [← e8]; exact c.2⟩⟩
      · exact .inr ⟨hA, lt, q1, q2⟩
  · cases hres

/-- **C131, the exception is real.** When the corner test does not say antiperiodic and the window starts above the eigenvalue with number 0 but where both angles are at most 1, `eigenvalues(eMin, eMax)` reports an entry with number 0 whose energy lies strictly between the eigenvalues with numbers 0 and 1: it is not an eigenvalue. `zH` is the energy where the larger angle is 1. -/
theorem C131_spurious {k : M2 ℝ} (hA : isAnti k = false) {P : ℕ → ℝ} (hP : PeriodicList W secs dmin dmax k P) {o : Oracle ℝ}
    (ho : ExactOracle W secs dmin dmax k o) (pos : ∀ E, -1 < (o.theta E).1 ∧ -1 < (o.theta E).2)
    (trunc : ℝ → Option ℤ) (ht : ∀ x i, trunc x = some i → (0 ≤ x → i ≤ x ∧ x < i + 1) ∧ (x ≤ 0 → x ≤ i ∧ (i : ℝ) < x + 1))
    (eMin eMax zH : ℝ) (h0 : P 0 < eMin) (h1 : eMin ≤ zH) (hz : o.maxTheta zH = 1) (h2 : zH + 1 / 10 ^ 8 * max 1 |zH| < P 1) (h3 : zH + 1 / 10 ^ 8 * max 1 |zH| < eMax)
    {fuel : Nat} {res : List (Int × ℝ × Int)} (hres : byEnergy trunc o multiplicity eMin eMax fuel = .ok res) :
    ∃ E, ((0 : ℤ), E, 1) ∈ res ∧ P 0 < E ∧ E < P 1 ∧ ¬ IsPeriodicEigenvalue W secs dmin dmax k E := by
  have lit : (CCmp.lit (1 / 100000000) : ℝ) = 1 / 10 ^ 8 := by norm_num
  obtain ⟨m1, m2⟩ := strict_theta ho.first.mono ho.second.mono
  have tp : 0 ≤ 1 / 10 ^ 8 * max 1 |zH| := mul_nonneg (by norm_num) (le_trans zero_le_one (le_max_left _ _))
  have z0 : o.findHigh 0 zH = 0 := by simp [Oracle.findHigh, hz]
  have mono : StrictMono (o.findHigh 0) := fun x y hxy => by
    have := m2 hxy
    simp only [Oracle.findHigh]; linarith
  have s0 : o.findHigh 0 eMin ≤ 0 := by rw [← z0]; exact mono.monotone h1
  unfold byEnergy at hres
  split at hres
  · rename_i a b ea eb
    rw [lit] at hres
    have mx : 1 < o.maxTheta eMax := by rw [← hz]; exact m2 (by linarith)
    have mn : -1 < o.minTheta eMin ∧ o.minTheta eMin ≤ 1 := by
      have q : o.maxTheta eMin ≤ 1 := by rw [← hz]; exact m2.monotone h1
      simp only [Oracle.minTheta, stdMin, Oracle.maxTheta, stdMax, ccmp_lt, decide_eq_true_eq] at q ⊢
      constructor
      · split_ifs <;> linarith [(pos eMin).1, (pos eMin).2]
      · split_ifs at q ⊢ <;> linarith
    have hb : 1 ≤ b := by
      obtain ⟨c1, -⟩ := ht _ _ eb
      have : (0 : ℝ) < b := by linarith [c1 (by linarith)]
      have : 0 < b := by exact_mod_cast this
      omega
    have ha : 0 ≤ a ∧ a ≤ 1 := by
      obtain ⟨c1, c2⟩ := ht _ _ ea
      rcases le_total 0 (o.minTheta eMin) with q | q
      · have u1 : (-1 : ℝ) < a := by linarith [c1 q]
        have u2 : (a : ℝ) ≤ 1 := by linarith [c1 q]
        have u1 : -1 < a := by exact_mod_cast u1
        have u2 : a ≤ 1 := by exact_mod_cast u2
        omega
      · have u1 : (-1 : ℝ) < a := by linarith [c2 q]
        have u2 : (a : ℝ) < 1 := by linarith [c2 q]
        have u1 : -1 < a := by exact_mod_cast u1
        have u2 : a < 1 := by exact_mod_cast u2
        omega
    obtain ⟨highest, hh1, hh2, all⟩ := helper_turns o _ _ _ _ _ (by simp only; linarith) hres
    simp only at hh1 hh2 all
    rcases all 0 (by omega) le_rfl (by omega) (by omega) with ⟨-, -, l1, high, E, ⟨a1, a1'⟩, a2, a3, a4, a5, a6⟩ | ⟨i, i1, par, i2, mi, T⟩
    · have l1e := a1' s0
      simp only at l1e
      subst l1e
      have hl : 0 ≤ o.findHigh 0 highest := by rw [← z0]; exact mono.monotone (by linarith)
      have nh := abs_le.mp (bisect_increasing mono (by norm_num) (by norm_num) z0 a3 hl a4)
      have bh := C31_result_in_bracket _ _ _ _ _ _ _ a2 a4
      have bE := C31_result_in_bracket _ _ _ _ _ _ _ bh.1 a5
      have e0 : P 0 < E := h0.trans_le bE.1
      have e1 : E < P 1 := by linarith [bE.2]
      refine ⟨E, a6 ?_, e0, e1, fun hE => ?_⟩
      · simp only [Range.rejects, ccmp_lt, ccmp_le, Bool.or_eq_false_iff, decide_eq_false_iff_not, not_lt, not_le, Bool.false_eq_true, if_false]
        exact ⟨⟨⟨by omega, by omega⟩, bE.1⟩, by linarith [bE.2]⟩
      · obtain ⟨n, rfl⟩ := (hP.all E).mp hE
        by_cases n1 : n ≤ 0
        · exact not_le.mpr e0 (hP.mono n1)
        · exact not_le.mpr e1 (hP.mono (by omega))
    · rw [ho.anti, hA, if_neg (by simp)] at par
      omega
  · cases hres

end Verif.Periodic
