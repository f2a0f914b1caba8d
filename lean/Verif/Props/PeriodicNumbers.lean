import Verif.Lemmas.FloquetList
import Verif.Props.Periodic

/-!
# Properties: the numbers of the eigenvalues of a coupled problem

`C128`: the eigenvalues of a problem with coupled boundary conditions interlace with those of every separated problem with directions `u` and `K u`, and only the neighbours that `eigenpairsHelper` treats as a pair can coincide.
`C129`: the pair search brackets exactly the two eigenvalues it looks for when `K` meets a sign condition, and misses one of them for every other `K`.
-/
namespace Verif.Periodic
open Verif.Mesh Verif.YT Verif.Solver

variable {W : Sec ℝ → ℝ → ℝ} {secs : List (Sec ℝ)} {dmin dmax vlo vhi : ℝ}

/-- The list of the eigenvalues, double ones twice, is unique. -/
theorem PeriodicList.unique {k : M2 ℝ} {P Q : ℕ → ℝ} (hP : PeriodicList W secs dmin dmax k P) (hQ : PeriodicList W secs dmin dmax k Q) : P = Q := by
  have key : ∀ {P Q : ℕ → ℝ}, PeriodicList W secs dmin dmax k P → PeriodicList W secs dmin dmax k Q → ∀ n, (∀ i < n, P i = Q i) → ¬ P n < Q n := by
    intro P Q hP hQ n ih hlt
    obtain ⟨m, hm⟩ := (hQ.all _).mp ((hP.all (P n)).mpr ⟨n, rfl⟩)
    have mn : m < n := by
      by_contra hc
      have := hQ.mono (not_lt.mp hc)
      linarith
    have e : P m = P n := by rw [ih m mn, hm]
    have n1 : n = m + 1 := by
      by_contra hc
      have h1 : m + 2 ≤ n := by omega
      have := hP.twice m
      have := hP.mono h1
      linarith
    subst n1
    have d := (hP.double m).mpr (.inl e)
    rw [ih m mn] at d
    rcases (hQ.double m).mp d with q | ⟨l, rfl, q⟩
    · linarith
    · have e1 := ih l (by omega)
      have := hP.twice l
      linarith
  funext n
  induction n using Nat.strong_induction_on with
  | _ n ih => exact le_antisymm (not_lt.mp (key hQ hP n fun i hi => (ih i hi).symm)) (not_lt.mp (key hP hQ n ih))

/-- **C128.** A bounded problem with coupled boundary conditions `(y, y')(dmax) = K (y, y')(dmin)`, `det K = 1`, has exactly one list `P 0 ≤ P 1 ≤ …` of eigenvalues (double ones twice). For every direction `u ≠ 0` let `lam n` be the eigenvalue number `n` of the separated problem with directions `u` and `K u`; then the two lists interlace as stated, according to the test of the code on the corner of `K` and to the sign of `K u` against `u`. -/
theorem C128_numbering (h : BoundedProblem W secs dmin dmax vlo vhi) {k : M2 ℝ} (hk : k.a * k.d - k.b * k.c = 1) :
    ∃! P, PeriodicList W secs dmin dmax k P ∧
      ∀ u : ℝ × ℝ, (u.1 ≠ 0 ∨ u.2 ≠ 0) → ∀ lam : ℕ → ℝ, (∀ n E, IsEigenvalueNr W secs dmin dmax u (img k u) n E ↔ E = lam n) →
        (isAnti k = true → 0 < sgnL u * sgnR (img k u) → ∀ j, P (2 * j) ≤ lam (2 * j) ∧ lam (2 * j) ≤ P (2 * j + 1) ∧ P (2 * j + 1) < lam (2 * j + 1) ∧ lam (2 * j + 1) < P (2 * j + 2)) ∧
        (isAnti k = true → sgnL u * sgnR (img k u) < 0 → ∀ j, lam (2 * j) < P (2 * j) ∧ P (2 * j) ≤ lam (2 * j + 1) ∧ lam (2 * j + 1) ≤ P (2 * j + 1) ∧ P (2 * j + 1) < lam (2 * j + 2)) ∧
        (isAnti k = false → 0 < sgnL u * sgnR (img k u) → ∀ j, lam (2 * j) ≤ P (2 * j) ∧ P (2 * j) < lam (2 * j + 1) ∧ lam (2 * j + 1) < P (2 * j + 1) ∧ P (2 * j + 1) ≤ lam (2 * j + 2)) ∧
        (isAnti k = false → sgnL u * sgnR (img k u) < 0 → ∀ j, P (2 * j) < lam (2 * j) ∧ lam (2 * j) < P (2 * j + 1) ∧ P (2 * j + 1) ≤ lam (2 * j + 1) ∧ lam (2 * j + 1) ≤ P (2 * j + 2)) := by
  obtain ⟨P, hP, hI⟩ := periodic_list h hk
  refine ⟨P, ⟨hP, fun u hu lam hl => ?_⟩, fun Q hQ => PeriodicList.unique hQ.1 hP⟩
  have := hI u hu lam hl
  refine ⟨fun a s => ?_, fun a s => ?_, fun a s => ?_, fun a s => ?_⟩
  · rw [a, decide_eq_true s] at this; exact this
  · rw [a, decide_eq_false (not_lt.mpr s.le)] at this; exact this
  · rw [a, decide_eq_true s] at this; exact this
  · rw [a, decide_eq_false (not_lt.mpr s.le)] at this; exact this

/-- **C128, what the code relies on.** Only an eigenvalue pair with the numbers `i - 1`, `i` of the loop (`i` odd when the corner test says antiperiodic, even otherwise) can coincide; every other two neighbours differ. In the case that is not antiperiodic the lowest eigenvalue is simple and below all others. -/
theorem C128_pairs (h : BoundedProblem W secs dmin dmax vlo vhi) {k : M2 ℝ} (hk : k.a * k.d - k.b * k.c = 1) {P : ℕ → ℝ} (hP : PeriodicList W secs dmin dmax k P) :
    (∀ i, P i = P (i + 1) → (i + 1) % 2 = if isAnti k then 1 else 0) ∧
    (isAnti k = false → P 0 < P 1 ∧ ¬ IsDoubleEigenvalue W secs dmin dmax k (P 0)) := by
  obtain ⟨P', ⟨hP', hI⟩, -⟩ := C128_numbering h hk
  obtain rfl := PeriodicList.unique hP hP'
  have n0 : ((0 : ℝ), (1 : ℝ)).1 ≠ 0 ∨ ((0 : ℝ), (1 : ℝ)).2 ≠ 0 := .inr one_ne_zero
  have hR := img_ne hk n0
  obtain ⟨lam, -, hl, -⟩ := separated_numbers h hk n0
  obtain ⟨A, B, C, D⟩ := hI (0, 1) n0 lam hl
  have sn : sgnL ((0 : ℝ), (1 : ℝ)) * sgnR (img k (0, 1)) ≠ 0 := mul_ne_zero (sgnL_ne n0) (sgnR_ne hR)
  have nt : isAnti k = true → ∀ j, P (2 * j + 1) < P (2 * j + 2) := fun a j => by
    rcases lt_or_gt_of_ne sn with s | s
    · have := B a s j; have := B a s (j + 1)
      have e : 2 * (j + 1) = 2 * j + 2 := by ring
      rw [e] at this
      linarith
    · have := A a s j
      linarith
  have nf : isAnti k = false → ∀ j, P (2 * j) < P (2 * j + 1) := fun a j => by
    rcases lt_or_gt_of_ne sn with s | s
    · have := D a s j
      linarith
    · have := C a s j
      linarith
  refine ⟨fun i e => ?_, fun a => ?_⟩
  · cases hA : isAnti k with
    | true =>
      rw [if_pos rfl]
      by_contra hc
      obtain ⟨j, rfl⟩ : ∃ j, i = 2 * j + 1 := ⟨i / 2, by omega⟩
      exact (nt hA j).ne e
    | false =>
      rw [if_neg (by simp)]
      by_contra hc
      obtain ⟨j, rfl⟩ : ∃ j, i = 2 * j := ⟨i / 2, by omega⟩
      exact (nf hA j).ne e
  · have := nf a 0
    refine ⟨this, fun d => ?_⟩
    rcases (hP.double 0).mp d with q | ⟨m, q, -⟩
    · exact this.ne q
    · omega

/-- The condition on the first row of `K` under which the pair search is right. -/
def RowSign (k : M2 ℝ) : Prop := |k.b| < |k.a| ∧ k.a * k.b ≤ 0

theorem row_good {k : M2 ℝ} (g : RowSign k) : if isAnti k then k.a + k.b < 0 ∧ k.a - k.b < 0 else 0 < k.a + k.b ∧ 0 < k.a - k.b := by
  obtain ⟨g1, g2⟩ := g
  have na : k.a ≠ 0 := fun e => by rw [e, abs_zero] at g1; exact absurd g1 (not_lt.mpr (abs_nonneg _))
  split_ifs with hA
  · have a0 : k.a < 0 := by
      rcases (isAnti_iff k).mp hA with b | ⟨-, a⟩
      · by_contra hc
        have : 0 < k.a := lt_of_le_of_ne (not_lt.mp hc) na.symm
        nlinarith
      · exact a
    rw [abs_of_neg a0] at g1
    have := le_abs_self k.b
    have := neg_abs_le k.b
    constructor <;> linarith
  · have hB := fun q => hA ((isAnti_iff k).mpr q)
    have a0 : 0 < k.a := by
      by_contra hc
      have a1 : k.a < 0 := lt_of_le_of_ne (not_lt.mp hc) na
      have b1 : ¬ 0 < k.b := fun q => hB (.inl q)
      have b2 : k.b ≠ 0 := fun q => hB (.inr ⟨q, a1⟩)
      have : k.b < 0 := lt_of_le_of_ne (not_lt.mp b1) b2
      nlinarith
    rw [abs_of_pos a0] at g1
    have := le_abs_self k.b
    have := neg_abs_le k.b
    constructor <;> linarith

theorem row_bad {k : M2 ℝ} (hk : k.a * k.d - k.b * k.c = 1) (g : ¬ RowSign k) :
    ∃ t : ℝ, (t = 1 ∨ t = -1) ∧ if isAnti k then 0 < sgnR (img k (1, t)) else sgnR (img k (1, t)) < 0 := by
  have ev : ∀ t, sgnR (img k (1, t)) = if k.a + k.b * t = 0 then -(k.c + k.d * t) else k.a + k.b * t := fun t => by
    simp only [sgnR, img, mul_one]
  split_ifs with hA
  · rcases (isAnti_iff k).mp hA with b | ⟨b, a⟩
    · by_cases s : 0 < k.a + k.b
      · refine ⟨1, .inl rfl, ?_⟩
        rw [ev, mul_one, if_neg s.ne']; exact s
      by_cases z : k.a + k.b = 0
      · refine ⟨1, .inl rfl, ?_⟩
        rw [ev, mul_one, if_pos z, mul_one]
        by_contra hc
        have e : k.a = -k.b := by linarith
        rw [e] at hk
        nlinarith
      · exfalso
        have : k.a + k.b < 0 := lt_of_le_of_ne (not_lt.mp s) z
        refine g ⟨?_, by nlinarith⟩
        rw [abs_of_pos b, abs_of_neg (by linarith)]; linarith
    · exfalso
      exact g ⟨by rw [b, abs_zero]; exact abs_pos.mpr a.ne, by rw [b, mul_zero]⟩
  · have hB := fun q => hA ((isAnti_iff k).mpr q)
    have b1 : k.b ≤ 0 := not_lt.mp fun q => hB (.inl q)
    rcases b1.lt_or_eq with b | b
    · by_cases s : k.a + k.b < 0
      · refine ⟨1, .inl rfl, ?_⟩
        rw [ev, mul_one, if_neg s.ne]; exact s
      by_cases z : k.a + k.b = 0
      · refine ⟨1, .inl rfl, ?_⟩
        rw [ev, mul_one, if_pos z, mul_one]
        by_contra hc
        have e : k.a = -k.b := by linarith
        rw [e] at hk
        nlinarith
      · exfalso
        have : 0 < k.a + k.b := lt_of_le_of_ne (not_lt.mp s) (Ne.symm z)
        refine g ⟨?_, by nlinarith⟩
        rw [abs_of_neg b, abs_of_pos (by linarith)]; linarith
    · exfalso
      have na : k.a ≠ 0 := fun e => by rw [e, b] at hk; norm_num at hk
      exact g ⟨by rw [b, abs_zero]; exact abs_pos.mpr na, by rw [b, mul_zero]⟩

theorem find_zero (o : Oracle ℝ) (i : ℕ) (E : ℝ) :
    (o.findLow i E ≤ 0 ↔ (o.theta E).1 ≤ (i : ℝ) - 1 ∨ (o.theta E).2 ≤ (i : ℝ) - 1) ∧ (0 ≤ o.findLow i E ↔ (i : ℝ) - 1 ≤ (o.theta E).1 ∧ (i : ℝ) - 1 ≤ (o.theta E).2) ∧
    (o.findHigh i E ≤ 0 ↔ (o.theta E).1 ≤ (i : ℝ) + 1 ∧ (o.theta E).2 ≤ (i : ℝ) + 1) ∧ (0 ≤ o.findHigh i E ↔ (i : ℝ) + 1 ≤ (o.theta E).1 ∨ (i : ℝ) + 1 ≤ (o.theta E).2) := by
  simp only [Oracle.findLow, Oracle.findHigh, Oracle.minTheta, Oracle.maxTheta, stdMin, stdMax, ccmp_lt, ccmp_lit, decide_eq_true_eq]
  push_cast
  refine ⟨?_, ?_, ?_, ?_⟩ <;> split_ifs <;> constructor <;> intro q
  all_goals first | (rcases q with q | q <;> linarith) | (constructor <;> linarith [q.1, q.2]) | (constructor <;> linarith) | linarith [q.1, q.2] | (left; linarith) | (right; linarith)

theorem CountsEigenvalues.cmp {L R : ℝ × ℝ} {θ : ℝ → ℝ} (h : CountsEigenvalues W secs dmin dmax L R θ) {lam : ℕ → ℝ} (hl : ∀ n E, IsEigenvalueNr W secs dmin dmax L R n E ↔ E = lam n) (n : ℕ) (E : ℝ) :
    (θ E ≤ n ↔ E ≤ lam n) ∧ ((n : ℝ) ≤ θ E ↔ lam n ≤ E) := by
  have e := (h.count n (lam n)).mpr ((hl n _).mpr rfl)
  rw [← e]
  exact ⟨h.mono.le_iff_le, h.mono.le_iff_le⟩

/-- **C129.** Let the first row of `K` meet `RowSign`, and let the two columns of the computed angle count the eigenvalues of the two separated problems `u = (1, 1)`, `u = (1, -1)`. Then, for every number `i ≥ 1` of the loop: every `low` at or below the zero of `findLow i` is below the eigenvalue with number `i - 1`, every `high` at or above the zero of `findHigh i` is above the eigenvalue with number `i`, and between the two zeros there is no other eigenvalue. -/
theorem C129_bracket (h : BoundedProblem W secs dmin dmax vlo vhi) {k : M2 ℝ} (hk : k.a * k.d - k.b * k.c = 1) (g : RowSign k) {P : ℕ → ℝ} (hP : PeriodicList W secs dmin dmax k P) (o : Oracle ℝ)
    (h1 : CountsEigenvalues W secs dmin dmax (1, 1) (img k (1, 1)) fun E => (o.theta E).1) (h2 : CountsEigenvalues W secs dmin dmax (1, -1) (img k (1, -1)) fun E => (o.theta E).2)
    {i : ℕ} (hi : 1 ≤ i) (par : i % 2 = if isAnti k then 1 else 0) :
    (∀ low, o.findLow i low ≤ 0 → low < P (i - 1)) ∧ (∀ high, 0 ≤ o.findHigh i high → P i < high) ∧
    (∀ low high, 0 ≤ o.findLow i low → o.findHigh i high ≤ 0 → ∀ E, low ≤ E → E ≤ high → (IsPeriodicEigenvalue W secs dmin dmax k E → E = P (i - 1) ∨ E = P i)) := by
  obtain ⟨P', ⟨hP', hI⟩, -⟩ := C128_numbering h hk
  obtain rfl := PeriodicList.unique hP hP'
  have u1 : ((1 : ℝ), (1 : ℝ)).1 ≠ 0 ∨ ((1 : ℝ), (1 : ℝ)).2 ≠ 0 := .inl one_ne_zero
  have u2 : ((1 : ℝ), (-1 : ℝ)).1 ≠ 0 ∨ ((1 : ℝ), (-1 : ℝ)).2 ≠ 0 := .inl one_ne_zero
  obtain ⟨lam, -, hl, -⟩ := separated_numbers h hk u1
  obtain ⟨mu, -, hm, -⟩ := separated_numbers h hk u2
  obtain ⟨A, B, C, D⟩ := hI _ u1 lam hl
  obtain ⟨A', B', C', D'⟩ := hI _ u2 mu hm
  have gd := row_good g
  have s1 : sgnL ((1 : ℝ), (1 : ℝ)) * sgnR (img k (1, 1)) = if k.a + k.b = 0 then -(k.c + k.d) else k.a + k.b := by simp [sgnL, sgnR, img]
  have s2 : sgnL ((1 : ℝ), (-1 : ℝ)) * sgnR (img k (1, -1)) = if k.a - k.b = 0 then -(k.c - k.d) else k.a - k.b := by simp [sgnL, sgnR, img, sub_eq_add_neg]
  -- where the four separated eigenvalues are
  have key : (lam (i - 1) < P (i - 1) ∧ mu (i - 1) < P (i - 1)) ∧ (P i < lam (i + 1) ∧ P i < mu (i + 1)) ∧
      (∀ n, n + 2 ≤ i → P n < lam (i - 1)) ∧ lam (i + 1) < P (i + 1) := by
    cases hA : isAnti k with
    | true =>
      rw [hA, if_pos rfl] at par gd
      obtain ⟨j, rfl⟩ : ∃ j, i = 2 * j + 1 := ⟨i / 2, by omega⟩
      rw [if_neg gd.1.ne] at s1
      rw [if_neg gd.2.ne] at s2
      have b := B hA (by rw [s1]; exact gd.1)
      have b' := B' hA (by rw [s2]; exact gd.2)
      refine ⟨⟨(b j).1, (b' j).1⟩, ⟨(b j).2.2.2, (b' j).2.2.2⟩, fun n hn => ?_, ?_⟩
      · obtain ⟨m, rfl⟩ : ∃ m, j = m + 1 := ⟨j - 1, by omega⟩
        exact (hP.mono (show n ≤ 2 * m + 1 by omega)).trans_lt (b m).2.2.2
      · exact (b (j + 1)).1
    | false =>
      rw [hA, if_neg (by simp)] at par gd
      obtain ⟨j, rfl⟩ : ∃ j, i = 2 * j + 2 := ⟨i / 2 - 1, by omega⟩
      rw [if_neg gd.1.ne'] at s1
      rw [if_neg gd.2.ne'] at s2
      have c := C hA (by rw [s1]; exact gd.1)
      have c' := C' hA (by rw [s2]; exact gd.2)
      refine ⟨⟨(c j).2.2.1, (c' j).2.2.1⟩, ⟨(c (j + 1)).2.1, (c' (j + 1)).2.1⟩, fun n hn => ?_, ?_⟩
      · exact (hP.mono (show n ≤ 2 * j by omega)).trans_lt (c j).2.1
      · exact (c (j + 1)).2.2.1
  obtain ⟨⟨k1, k2⟩, ⟨k3, k4⟩, k5, k6⟩ := key
  have ci : ((i - 1 : ℕ) : ℝ) = (i : ℝ) - 1 := by rw [Nat.cast_sub hi, Nat.cast_one]
  have cj : ((i + 1 : ℕ) : ℝ) = (i : ℝ) + 1 := by push_cast; ring
  refine ⟨fun low q => ?_, fun high q => ?_, fun low high q1 q2 E e1 e2 hE => ?_⟩
  · rcases (find_zero o i low).1.mp q with q | q
    · exact ((CountsEigenvalues.cmp h1 hl (i - 1) low).1.mp (by rw [ci]; exact q)).trans_lt k1
    · exact ((CountsEigenvalues.cmp h2 hm (i - 1) low).1.mp (by rw [ci]; exact q)).trans_lt k2
  · rcases (find_zero o i high).2.2.2.mp q with q | q
    · exact k3.trans_le ((CountsEigenvalues.cmp h1 hl (i + 1) high).2.mp (by rw [cj]; exact q))
    · exact k4.trans_le ((CountsEigenvalues.cmp h2 hm (i + 1) high).2.mp (by rw [cj]; exact q))
  · have r1 := (CountsEigenvalues.cmp h1 hl (i - 1) low).2.mp (by rw [ci]; exact ((find_zero o i low).2.1.mp q1).1)
    have r2 := (CountsEigenvalues.cmp h1 hl (i + 1) high).1.mp (by rw [cj]; exact ((find_zero o i high).2.2.1.mp q2).1)
    obtain ⟨n, rfl⟩ := (hP.all E).mp hE
    by_cases n1 : n + 2 ≤ i
    · have := k5 n n1
      linarith
    by_cases n2 : i + 1 ≤ n
    · have := hP.mono n2
      linarith
    obtain e | e : n = i - 1 ∨ n = i := by omega
    · exact .inl (by rw [e])
    · exact .inr (by rw [e])

/-- **C129, the lowest eigenvalue.** When `RowSign` holds and the corner test does not say antiperiodic, every `high` at or above the zero of `findHigh 0` is above the eigenvalue with number 0, and up to the zero there is no other eigenvalue. -/
theorem C129_lowest (h : BoundedProblem W secs dmin dmax vlo vhi) {k : M2 ℝ} (hk : k.a * k.d - k.b * k.c = 1) (g : RowSign k) (hA : isAnti k = false) {P : ℕ → ℝ} (hP : PeriodicList W secs dmin dmax k P) (o : Oracle ℝ)
    (h1 : CountsEigenvalues W secs dmin dmax (1, 1) (img k (1, 1)) fun E => (o.theta E).1) (h2 : CountsEigenvalues W secs dmin dmax (1, -1) (img k (1, -1)) fun E => (o.theta E).2) :
    (∀ high, 0 ≤ o.findHigh 0 high → P 0 < high) ∧ (∀ high, o.findHigh 0 high ≤ 0 → ∀ E ≤ high, IsPeriodicEigenvalue W secs dmin dmax k E → E = P 0) := by
  obtain ⟨P', ⟨hP', hI⟩, -⟩ := C128_numbering h hk
  obtain rfl := PeriodicList.unique hP hP'
  have u1 : ((1 : ℝ), (1 : ℝ)).1 ≠ 0 ∨ ((1 : ℝ), (1 : ℝ)).2 ≠ 0 := .inl one_ne_zero
  have u2 : ((1 : ℝ), (-1 : ℝ)).1 ≠ 0 ∨ ((1 : ℝ), (-1 : ℝ)).2 ≠ 0 := .inl one_ne_zero
  obtain ⟨lam, -, hl, -⟩ := separated_numbers h hk u1
  obtain ⟨mu, -, hm, -⟩ := separated_numbers h hk u2
  obtain ⟨A, B, C, D⟩ := hI _ u1 lam hl
  obtain ⟨A', B', C', D'⟩ := hI _ u2 mu hm
  have gd := row_good g
  rw [hA, if_neg (by simp)] at gd
  have s1 : sgnL ((1 : ℝ), (1 : ℝ)) * sgnR (img k (1, 1)) = k.a + k.b := by simp [sgnL, sgnR, img, gd.1.ne']
  have s2 : sgnL ((1 : ℝ), (-1 : ℝ)) * sgnR (img k (1, -1)) = k.a - k.b := by simp [sgnL, sgnR, img, ← sub_eq_add_neg, gd.2.ne']
  have c := C hA (by rw [s1]; exact gd.1) 0
  have c' := C' hA (by rw [s2]; exact gd.2) 0
  simp only [mul_zero, zero_add] at c c'
  have f := fun E => find_zero o 0 E
  simp only [Nat.cast_zero, zero_add] at f
  refine ⟨fun high q => ?_, fun high q E e hE => ?_⟩
  · rcases (f high).2.2.2.mp q with q | q
    · exact c.2.1.trans_le ((CountsEigenvalues.cmp h1 hl 1 high).2.mp (by rw [Nat.cast_one]; exact q))
    · exact c'.2.1.trans_le ((CountsEigenvalues.cmp h2 hm 1 high).2.mp (by rw [Nat.cast_one]; exact q))
  · have r := (CountsEigenvalues.cmp h1 hl 1 high).1.mp (by rw [Nat.cast_one]; exact ((f high).2.2.1.mp q).1)
    obtain ⟨n, rfl⟩ := (hP.all E).mp hE
    by_cases n1 : 1 ≤ n
    · have := hP.mono n1
      linarith [c.2.2.1]
    · rw [show n = 0 by omega]

/-- **C129, the other matrices.** When the first row of `K` violates `RowSign`, the bracket of every pair starts too high: every `low` at or above the zero of `findLow i` is at or above the eigenvalue with number `i - 1`, which the search then looks for above `low`. -/
theorem C129_bracket_misses (h : BoundedProblem W secs dmin dmax vlo vhi) {k : M2 ℝ} (hk : k.a * k.d - k.b * k.c = 1) (g : ¬ RowSign k) {P : ℕ → ℝ} (hP : PeriodicList W secs dmin dmax k P) (o : Oracle ℝ)
    (h1 : CountsEigenvalues W secs dmin dmax (1, 1) (img k (1, 1)) fun E => (o.theta E).1) (h2 : CountsEigenvalues W secs dmin dmax (1, -1) (img k (1, -1)) fun E => (o.theta E).2)
    {i : ℕ} (hi : 1 ≤ i) (par : i % 2 = if isAnti k then 1 else 0) {low : ℝ} (lo : 0 ≤ o.findLow i low) : P (i - 1) ≤ low := by
  obtain ⟨P', ⟨hP', hI⟩, -⟩ := C128_numbering h hk
  obtain rfl := PeriodicList.unique hP hP'
  obtain ⟨t, ht, hs⟩ := row_bad hk g
  have ut : ((1 : ℝ), t).1 ≠ 0 ∨ ((1 : ℝ), t).2 ≠ 0 := .inl one_ne_zero
  obtain ⟨lam, -, hl, -⟩ := separated_numbers h hk ut
  obtain ⟨A, B, C, D⟩ := hI _ ut lam hl
  have sl : sgnL ((1 : ℝ), t) = 1 := by simp [sgnL]
  rw [sl, one_mul] at A B C D
  have key : P (i - 1) ≤ lam (i - 1) := by
    cases hA : isAnti k with
    | true =>
      rw [hA, if_pos rfl] at par hs
      obtain ⟨j, rfl⟩ : ∃ j, i = 2 * j + 1 := ⟨i / 2, by omega⟩
      exact (A hA hs j).1
    | false =>
      rw [hA, if_neg (by simp)] at par hs
      obtain ⟨j, rfl⟩ : ∃ j, i = 2 * j + 2 := ⟨i / 2 - 1, by omega⟩
      exact (D hA hs j).2.2.1
  have ci : ((i - 1 : ℕ) : ℝ) = (i : ℝ) - 1 := by rw [Nat.cast_sub hi, Nat.cast_one]
  have z := (find_zero o i low).2.1.mp lo
  refine key.trans ?_
  rcases ht with rfl | rfl
  · exact (CountsEigenvalues.cmp h1 hl (i - 1) low).2.mp (by rw [ci]; exact z.1)
  · exact (CountsEigenvalues.cmp h2 hl (i - 1) low).2.mp (by rw [ci]; exact z.2)

/-! ### The requested eigenvalues are inside the windows of the searches -/

/-- At the eigenvalue with number `n` both columns of the angle are between `n` and `n + 1`. -/
theorem theta_at (h : BoundedProblem W secs dmin dmax vlo vhi) {k : M2 ℝ} (hk : k.a * k.d - k.b * k.c = 1) (g : RowSign k) {P : ℕ → ℝ} (hP : PeriodicList W secs dmin dmax k P) {θ1 θ2 : ℝ → ℝ}
    (h1 : CountsEigenvalues W secs dmin dmax (1, 1) (img k (1, 1)) θ1) (h2 : CountsEigenvalues W secs dmin dmax (1, -1) (img k (1, -1)) θ2) (n : ℕ) :
    ((n : ℝ) ≤ θ1 (P n) ∧ θ1 (P n) ≤ n + 1) ∧ ((n : ℝ) ≤ θ2 (P n) ∧ θ2 (P n) ≤ n + 1) := by
  obtain ⟨P', ⟨hP', hI⟩, -⟩ := C128_numbering h hk
  obtain rfl := PeriodicList.unique hP hP'
  have main : ∀ (t : ℝ) (θ : ℝ → ℝ), (if isAnti k then k.a + k.b * t < 0 else 0 < k.a + k.b * t) → CountsEigenvalues W secs dmin dmax (1, t) (img k (1, t)) θ → (n : ℝ) ≤ θ (P n) ∧ θ (P n) ≤ n + 1 := by
    intro t θ hs hθ
    have ut : ((1 : ℝ), t).1 ≠ 0 ∨ ((1 : ℝ), t).2 ≠ 0 := .inl one_ne_zero
    obtain ⟨lam, -, hl, -⟩ := separated_numbers h hk ut
    obtain ⟨-, B, C, -⟩ := hI _ ut lam hl
    have s : k.a + k.b * t ≠ 0 → sgnL ((1 : ℝ), t) * sgnR (img k (1, t)) = k.a + k.b * t := fun z => by simp [sgnL, sgnR, img, z]
    have key : lam n ≤ P n ∧ P n ≤ lam (n + 1) := by
      cases hA : isAnti k with
      | true =>
        rw [hA, if_pos rfl] at hs
        have b := B hA (by rw [s hs.ne]; exact hs)
        obtain ⟨j, rfl | rfl⟩ : ∃ j, n = 2 * j ∨ n = 2 * j + 1 := ⟨n / 2, by omega⟩
        · exact ⟨(b j).1.le, (b j).2.1⟩
        · exact ⟨(b j).2.2.1, (b j).2.2.2.le⟩
      | false =>
        rw [hA, if_neg (by simp)] at hs
        have c := C hA (by rw [s hs.ne']; exact hs)
        obtain ⟨j, rfl | rfl⟩ : ∃ j, n = 2 * j ∨ n = 2 * j + 1 := ⟨n / 2, by omega⟩
        · exact ⟨(c j).1, (c j).2.1.le⟩
        · exact ⟨(c j).2.2.1.le, (c j).2.2.2⟩
    have e := (CountsEigenvalues.cmp hθ hl (n + 1) (P n)).1.mpr key.2
    push_cast at e
    exact ⟨(CountsEigenvalues.cmp hθ hl n (P n)).2.mpr key.1, e⟩
  have gd := row_good g
  refine ⟨main 1 θ1 ?_ h1, main (-1) θ2 ?_ h2⟩
  · split_ifs at gd ⊢ <;> linarith [gd.1]
  · split_ifs at gd ⊢ <;> linarith [gd.2]

/-- The number `n` is looked at by the search with the first index `iMin` and the last index `iMax`: as the number 0 of the block before the loop, or as one of the two numbers of a turn. -/
def Visited (anti : Bool) (iMin iMax n : ℤ) : Prop :=
  (startIndex anti iMin = 0 ∧ n = 0) ∨
  ∃ j : ℕ, let i := startIndex anti iMin + (if startIndex anti iMin = 0 then 2 else 0) + 2 * j; i ≤ iMax + 1 ∧ (n = i - 1 ∨ n = i)

theorem visited_of {anti : Bool} {iMin iMax n : ℤ} (h0 : -1 ≤ iMin) (n0 : 0 ≤ n) (h1 : iMin ≤ n) (h2 : n < iMax) : Visited anti iMin iMax n := by
  unfold Visited startIndex
  have hm : iMin.tmod 2 = if iMin = -1 then -1 else iMin % 2 := by
    split_ifs with e
    · rw [e]; rfl
    · exact Int.tmod_eq_emod_of_nonneg (by omega)
  rw [hm]
  cases anti with
  | true =>
    right
    simp only [if_true]
    split_ifs with e e' e'
    · omega
    · exact ⟨(n / 2).toNat, by subst e; omega⟩
    · omega
    · exact ⟨(n / 2 - iMin / 2).toNat, by omega⟩
  | false =>
    simp only [Bool.false_eq_true, if_false]
    by_cases z : n = 0
    · left; split_ifs <;> omega
    · right
      split_ifs with e e' e'
      · exact ⟨((n + 1) / 2 - 1).toNat, by subst e; omega⟩
      · omega
      · exact ⟨((n + 1) / 2 - 1).toNat, by omega⟩
      · exact ⟨((n + 1) / 2 - iMin / 2).toNat, by omega⟩

/-- **C130, by index.** When `RowSign` holds and the angles count the eigenvalues, the energy window found by the doubling loops of `eigenvaluesByIndex(iMin, iMax)` keeps every requested eigenvalue: its number is visited and the entry is not discarded. -/
theorem C130_window_by_index (h : BoundedProblem W secs dmin dmax vlo vhi) {k : M2 ℝ} (hk : k.a * k.d - k.b * k.c = 1) (g : RowSign k) {P : ℕ → ℝ} (hP : PeriodicList W secs dmin dmax k P) (o : Oracle ℝ)
    (h1 : CountsEigenvalues W secs dmin dmax (1, 1) (img k (1, 1)) fun E => (o.theta E).1) (h2 : CountsEigenvalues W secs dmin dmax (1, -1) (img k (1, -1)) fun E => (o.theta E).2)
    (iMin iMax : ℕ) (fuel : ℕ) (eMin eMax : ℝ)
    (e1 : doubleWhile (fun E => !CCmp.lt (CCmp.lit (max ((iMin : ℤ) - 2) 0 : ℤ)) (o.minTheta E)) fuel (CCmp.lit (-1)) = .ok eMin)
    (e2 : doubleWhile (fun E => !CCmp.lt (o.maxTheta E) (CCmp.lit ((iMax : ℤ) + 2 : ℤ))) fuel (CCmp.lit 1) = .ok eMax) (n : ℕ) (n1 : iMin ≤ n) (n2 : n < iMax) :
    Visited (isAnti k) iMin iMax n ∧ ∀ double, (Range.mk eMin eMax (iMin : ℤ) (iMax : ℤ)).rejects n (P n) double = false := by
  obtain ⟨⟨a1, a2⟩, b1, b2⟩ := theta_at h hk g hP h1 h2 n
  have stop : ∀ (st : ℝ → Bool) (f : ℕ) (x y : ℝ), doubleWhile st f x = .ok y → st y = true := by
    intro st f
    induction f with
    | zero => intro x y e; unfold doubleWhile at e; split_ifs at e with c; · cases e; exact c
    | succ f ih => intro x y e; unfold doubleWhile at e; split_ifs at e with c; · cases e; exact c
                   · exact ih _ _ e
  have s1 := stop _ _ _ _ e1
  have s2 := stop _ _ _ _ e2
  simp only [Oracle.minTheta, Oracle.maxTheta, stdMin, stdMax, ccmp_lt, ccmp_lit, decide_eq_true_eq, Bool.not_eq_true', decide_eq_false_iff_not, not_lt] at s1 s2
  have cn : (iMin : ℝ) ≤ n := by exact_mod_cast n1
  have cx : (n : ℝ) + 1 ≤ iMax := by exact_mod_cast n2
  have mx : ((max ((iMin : ℤ) - 2) 0 : ℤ) : ℝ) ≤ n := by
    have : max ((iMin : ℤ) - 2) 0 ≤ (n : ℤ) := by omega
    exact_mod_cast this
  push_cast at s1 s2 mx
  have low : eMin ≤ P n := by
    by_contra hc
    have u1 := h1.mono (not_le.mp hc)
    have u2 := h2.mono (not_le.mp hc)
    split_ifs at s1 <;> linarith
  have high : P n < eMax := by
    by_contra hc
    have u1 := h1.mono.monotone (not_lt.mp hc)
    have u2 := h2.mono.monotone (not_lt.mp hc)
    split_ifs at s2 <;> linarith
  refine ⟨visited_of (by omega) (by omega) (by omega) (by omega), fun double => ?_⟩
  simp only [Range.rejects, ccmp_lt, ccmp_le, Bool.or_eq_false_iff, decide_eq_false_iff_not, not_lt, not_le]
  refine ⟨⟨⟨?_, by omega⟩, low⟩, high⟩
  split_ifs <;> simp <;> omega

/-- **C130, by energy.** When `RowSign` holds and the angles count the eigenvalues and stay above `-1`, `eigenvalues(eMin, eMax)` keeps every eigenvalue of the window `[eMin, eMax)`: its number is visited and the entry is not discarded. `trunc` is the conversion to `int`, with the values it must have: the integral part. -/
theorem C130_window_by_energy (h : BoundedProblem W secs dmin dmax vlo vhi) {k : M2 ℝ} (hk : k.a * k.d - k.b * k.c = 1) (g : RowSign k) {P : ℕ → ℝ} (hP : PeriodicList W secs dmin dmax k P) (o : Oracle ℝ)
    (h1 : CountsEigenvalues W secs dmin dmax (1, 1) (img k (1, 1)) fun E => (o.theta E).1) (h2 : CountsEigenvalues W secs dmin dmax (1, -1) (img k (1, -1)) fun E => (o.theta E).2)
    (pos : ∀ E, -1 < (o.theta E).1 ∧ -1 < (o.theta E).2)
    (trunc : ℝ → Option ℤ) (ht : ∀ x i, trunc x = some i → (0 ≤ x → i ≤ x ∧ x < i + 1) ∧ (x ≤ 0 → x ≤ i ∧ (i : ℝ) < x + 1))
    (eMin eMax : ℝ) (a b : ℤ) (ea : trunc (o.minTheta eMin) = some a) (eb : trunc (o.maxTheta eMax) = some b) (n : ℕ) (n1 : eMin ≤ P n) (n2 : P n < eMax) :
    Visited (isAnti k) (a - 1) (b + 1) n ∧ ∀ double, (Range.mk eMin eMax (a - 1) (b + 1)).rejects n (P n) double = false := by
  obtain ⟨⟨a1, a2⟩, b1, b2⟩ := theta_at h hk g hP h1 h2 n
  have u1 := h1.mono.monotone n1
  have u2 := h2.mono.monotone n1
  have v1 := h1.mono n2
  have v2 := h2.mono n2
  have n0 : (0 : ℝ) ≤ n := Nat.cast_nonneg n
  have p := pos eMin
  have mn : o.minTheta eMin ≤ n + 1 ∧ -1 < o.minTheta eMin := by
    simp only [Oracle.minTheta, stdMin, ccmp_lt]
    split_ifs <;> constructor <;> linarith [p.1, p.2]
  have mx : (n : ℝ) < o.maxTheta eMax := by
    simp only [Oracle.maxTheta, stdMax, ccmp_lt]
    split_ifs <;> linarith
  have ga : a ≤ n + 1 ∧ 0 ≤ a := by
    obtain ⟨q1, q2⟩ := ht _ _ ea
    rcases le_total 0 (o.minTheta eMin) with q | q
    · have := q1 q
      constructor
      · have : (a : ℝ) ≤ n + 1 := by linarith
        exact_mod_cast this
      · have : (-1 : ℝ) < a := by linarith
        have : -1 < a := by exact_mod_cast this
        omega
    · have := q2 q
      constructor
      · have : (a : ℝ) < n + 2 := by linarith
        have : a < n + 2 := by exact_mod_cast this
        omega
      · have : (-1 : ℝ) < a := by linarith
        have : -1 < a := by exact_mod_cast this
        omega
  have gb : (n : ℤ) ≤ b := by
    have := (ht _ _ eb).1 (by linarith)
    have : (n : ℝ) < b + 1 := by linarith
    have : (n : ℤ) < b + 1 := by exact_mod_cast this
    omega
  refine ⟨visited_of (by omega) (by omega) (by omega) (by omega), fun double => ?_⟩
  simp only [Range.rejects, ccmp_lt, ccmp_le, Bool.or_eq_false_iff, decide_eq_false_iff_not, not_lt, not_le]
  refine ⟨⟨⟨?_, by omega⟩, n1⟩, n2⟩
  split_ifs <;> simp <;> omega

/-! ### The hypotheses are met -/

theorem counts_of_list {L R : ℝ × ℝ} {lam : ℕ → ℝ} (mono : StrictMono lam) (hl : ∀ n E, IsEigenvalueNr W secs dmin dmax L R n E ↔ E = lam n) (unb : ∀ x, ∃ n, x < lam n) :
    ∃ θ, CountsEigenvalues W secs dmin dmax L R θ ∧ (∀ E, -1 < θ E) ∧ ∀ n E, lam n ≤ E → n ≤ θ E := by
  classical
  have ex : ∀ E, ∃ t : ℝ, (E < lam 0 ∧ t = (E - lam 0) / (1 + lam 0 - E)) ∨ ∃ m : ℕ, lam m ≤ E ∧ E < lam (m + 1) ∧ t = m + (E - lam m) / (lam (m + 1) - lam m) := fun E => by
    cases h : Nat.find (unb E) with
    | zero => exact ⟨_, .inl ⟨by have := Nat.find_spec (unb E); rwa [h] at this, rfl⟩⟩
    | succ m =>
      refine ⟨_, .inr ⟨m, not_lt.mp (Nat.find_min (unb E) (by omega)), ?_, rfl⟩⟩
      have := Nat.find_spec (unb E); rwa [h] at this
  choose θ hθ using ex
  have step : ∀ m, 0 < lam (m + 1) - lam m := fun m => sub_pos.mpr (mono (Nat.lt_succ_self m))
  have neg : ∀ E, E < lam 0 → -1 < (E - lam 0) / (1 + lam 0 - E) ∧ (E - lam 0) / (1 + lam 0 - E) < 0 := fun E hE => by
    have d : 0 < 1 + lam 0 - E := by linarith
    rw [lt_div_iff₀ d, div_lt_iff₀ d]
    constructor <;> linarith
  have cnt : CountsEigenvalues W secs dmin dmax L R θ := by
   refine ⟨fun x y hxy => ?_, fun n E => ?_⟩
   · rcases hθ x with ⟨a, b⟩ | ⟨m, a, b, c⟩ <;> rcases hθ y with ⟨a', b'⟩ | ⟨l, a', b', c'⟩
     · rw [b, b', div_lt_div_iff₀ (by linarith) (by linarith)]; nlinarith
     · have := div_nonneg (sub_nonneg.mpr a') (step l).le
       have : (0 : ℝ) ≤ l := Nat.cast_nonneg l
       have := (neg x a).2
       rw [b, c']; linarith
     · have := mono.monotone (Nat.zero_le m)
       linarith
     · have u : (x - lam m) / (lam (m + 1) - lam m) < 1 := by rw [div_lt_one (step m)]; linarith
       have v := div_nonneg (sub_nonneg.mpr a') (step l).le
       rcases lt_trichotomy m l with q | rfl | q
       · have : (m : ℝ) + 1 ≤ l := by exact_mod_cast q
         rw [c, c']; linarith
       · rw [c, c']
         have := div_lt_div_of_pos_right (show x - lam m < y - lam m by linarith) (step m)
         linarith
       · have := mono.monotone (show l + 1 ≤ m from q)
         linarith
   · rw [hl]
     rcases hθ E with ⟨a, b⟩ | ⟨m, a, b, c⟩
     · have := mono.monotone (Nat.zero_le n)
       have : (0 : ℝ) ≤ n := Nat.cast_nonneg n
       have := (neg E a).2
       constructor <;> intro q <;> linarith
     · have v := div_nonneg (sub_nonneg.mpr a) (step m).le
       have u : (E - lam m) / (lam (m + 1) - lam m) < 1 := by rw [div_lt_one (step m)]; linarith
       constructor
       · intro q
         have e : m = n := by
           have h1 : (m : ℝ) < n + 1 := by linarith
           have h2 : (n : ℝ) < m + 1 := by linarith
           have h1 : m < n + 1 := by exact_mod_cast h1
           have h2 : n < m + 1 := by exact_mod_cast h2
           omega
         subst e
         have z : (E - lam m) / (lam (m + 1) - lam m) = 0 := by linarith
         rcases div_eq_zero_iff.mp z with w | w
         · linarith
         · exact absurd w (step m).ne'
       · rintro rfl
         have e : m = n := by
           have h1 := mono.le_iff_le.mp a
           have h2 := mono.lt_iff_lt.mp b
           omega
         subst e
         rw [c, sub_self, zero_div, add_zero]
  refine ⟨θ, cnt, fun E => ?_, fun n E hE => ?_⟩
  · rcases hθ E with ⟨a, b⟩ | ⟨m, a, b, c⟩
    · rw [b]; exact (neg E a).1
    · have v := div_nonneg (sub_nonneg.mpr a) (step m).le
      have : (0 : ℝ) ≤ m := Nat.cast_nonneg m
      rw [c]; linarith
  · exact (CountsEigenvalues.cmp cnt hl n E).2.mpr hE

/-- An oracle with exact angles. -/
theorem oracle_exists (h : BoundedProblem W secs dmin dmax vlo vhi) {k : M2 ℝ} (hk : k.a * k.d - k.b * k.c = 1) :
    ∃ o : Oracle ℝ, o.anti = isAnti k ∧ (CountsEigenvalues W secs dmin dmax (1, 1) (img k (1, 1)) fun E => (o.theta E).1) ∧ (CountsEigenvalues W secs dmin dmax (1, -1) (img k (1, -1)) fun E => (o.theta E).2) ∧
      (∀ E, -1 < (o.theta E).1 ∧ -1 < (o.theta E).2) ∧ (∃ F, ∀ E ≤ F, (o.theta E).1 ≤ 0) ∧ ∀ n : ℕ, ∃ F, ∀ E, F ≤ E → n ≤ (o.theta E).1 := by
  obtain ⟨l1, a1, b1, c1⟩ := separated_numbers h hk (u := (1, 1)) (.inl one_ne_zero)
  obtain ⟨l2, a2, b2, c2⟩ := separated_numbers h hk (u := (1, -1)) (.inl one_ne_zero)
  obtain ⟨t1, h1, p1, q1⟩ := counts_of_list a1 b1 c1
  obtain ⟨t2, h2, p2, q2⟩ := counts_of_list a2 b2 c2
  exact ⟨⟨fun E => (t1 E, t2 E), fun _ => 0, fun _ => 0, isAnti k⟩, rfl, h1, h2, fun E => ⟨p1 E, p2 E⟩,
    ⟨l1 0, fun E hE => by have := (CountsEigenvalues.cmp h1 b1 0 E).1.mpr hE; simpa using this⟩, fun n => ⟨l1 n, fun E hE => q1 n E hE⟩⟩

theorem double_stops (st : ℝ → Bool) : ∀ (m fuel : ℕ) (x : ℝ), m ≤ fuel → st (x * 2 ^ m) = true → ∃ y, doubleWhile st fuel x = .ok y := by
  intro m
  induction m with
  | zero =>
    intro fuel x _ h
    rw [pow_zero, mul_one] at h
    refine ⟨x, ?_⟩
    cases fuel <;> (unfold doubleWhile; rw [if_pos h])
  | succ m ih =>
    intro fuel x hf h
    obtain ⟨f, rfl⟩ : ∃ f, fuel = f + 1 := ⟨fuel - 1, by omega⟩
    by_cases c : st x = true
    · exact ⟨x, by unfold doubleWhile; rw [if_pos c]⟩
    · obtain ⟨y, hy⟩ := ih f (x * 2) (by omega) (by rw [← h]; congr 1; ring)
      refine ⟨y, ?_⟩
      unfold doubleWhile
      rw [if_neg c]
      simp only [ccmp_lit, Rat.cast_ofNat]
      exact hy

/-- The potential `0` on `[0, 1]`. -/
theorem free_problem : BoundedProblem (fun _ _ => 0) [⟨0, 1, .forward⟩] 0 1 0 0 := by
  refine ⟨⟨⟨by simp [bounds], ?_, ?_, ?_⟩, ?_⟩, ?_, ?_, ?_, ?_⟩
  · intro p hp; simp [bounds] at hp; rw [← hp]
  · intro p hp; simp [bounds] at hp; rw [← hp]
  · intro i hi
    simp [bounds] at hi
  · intro s hs
    have hs : s = ⟨0, 1, .forward⟩ := by simpa using hs
    subst hs; simp
  all_goals
    intro s hs
    have hs : s = ⟨0, 1, .forward⟩ := by simpa using hs
    subst hs
  · norm_num
  · exact continuousOn_const
  · intro x _; exact le_rfl
  · intro x _; exact le_rfl

/-- Non-vacuity of C128 and C129 for the periodic and the antiperiodic problem with the potential `0` on `[0, 1]`: all hypotheses hold. -/
example : ∀ k : M2 ℝ, k = ⟨1, 0, 0, 1⟩ ∨ k = ⟨-1, 0, 0, -1⟩ →
    ∃ (P : ℕ → ℝ) (o : Oracle ℝ), PeriodicList (fun _ _ => 0) [⟨0, 1, .forward⟩] 0 1 k P ∧ o.anti = isAnti k ∧ RowSign k ∧
      ∀ i : ℕ, 1 ≤ i → i % 2 = (if isAnti k then 1 else 0) → ∀ low high, o.findLow i low = 0 → o.findHigh i high = 0 → low < P (i - 1) ∧ P i < high := by
  intro k hk
  have hd : k.a * k.d - k.b * k.c = 1 := by rcases hk with rfl | rfl <;> norm_num
  have g : RowSign k := by rcases hk with rfl | rfl <;> norm_num [RowSign]
  obtain ⟨P, ⟨hP, -⟩, -⟩ := C128_numbering free_problem hd
  obtain ⟨o, ho, h1, h2, -⟩ := oracle_exists free_problem hd
  refine ⟨P, o, hP, ho, g, fun i hi par low high e1 e2 => ?_⟩
  obtain ⟨a, b, -⟩ := C129_bracket free_problem hd g hP o h1 h2 hi par
  exact ⟨a low e1.le, b high e2.ge⟩

/-- **C129, a lost eigenvalue.** With the potential `0` on `[0, 1]` and `K = [[1, 2], [0, 1]]`, the eigenvalue with number 0 is `0` (with the constant eigenfunction), yet with exact angles every pair of the search starts strictly above 0: `low > 0` whenever `low` is at or above the zero of `findLow i`. -/
theorem C129_lost_example {P : ℕ → ℝ} (hP : PeriodicList (fun _ _ => 0) [⟨0, 1, .forward⟩] 0 1 (⟨1, 2, 0, 1⟩ : M2 ℝ) P) (o : Oracle ℝ)
    (h1 : CountsEigenvalues (fun _ _ => 0) [⟨0, 1, .forward⟩] 0 1 (1, 1) (img ⟨1, 2, 0, 1⟩ (1, 1)) fun E => (o.theta E).1) :
    P 0 = 0 ∧ isAnti (⟨1, 2, 0, 1⟩ : M2 ℝ) = true ∧ ∀ i : ℕ, 1 ≤ i → ∀ low, 0 ≤ o.findLow i low → 0 < low := by
  have h := free_problem
  have hd : (⟨1, 2, 0, 1⟩ : M2 ℝ).a * (⟨1, 2, 0, 1⟩ : M2 ℝ).d - (⟨1, 2, 0, 1⟩ : M2 ℝ).b * (⟨1, 2, 0, 1⟩ : M2 ℝ).c = 1 := by norm_num
  have hA : isAnti (⟨1, 2, 0, 1⟩ : M2 ℝ) = true := (isAnti_iff _).mpr (.inl (by norm_num))
  obtain ⟨P', ⟨hP', hI⟩, -⟩ := C128_numbering h hd
  obtain rfl := PeriodicList.unique hP hP'
  obtain ⟨lam, mono, hl, -⟩ := separated_numbers h hd (u := (1, 1)) (.inl one_ne_zero)
  have A := (hI (1, 1) (.inl one_ne_zero) lam hl).1 hA (by simp [sgnL, sgnR, img]; norm_num) 0
  simp only [mul_zero, zero_add] at A
  -- linear functions solve the equation at energy 0
  have lin : ∀ α β : ℝ, SolvesMesh (fun _ _ => 0) 0 [⟨0, 1, .forward⟩] (fun x => α + β * x) (fun _ => β) := fun α β s _ => by
    refine ⟨fun x _ => ?_, fun x _ => ?_⟩
    · have := ((hasDerivAt_id x).const_mul β).const_add α
      simp only [id, mul_one] at this
      exact this.hasDerivWithinAt
    · simp only [sub_self, zero_mul]
      exact hasDerivWithinAt_const _ _ _
  -- the lowest separated eigenvalue is positive
  have pos : 0 < lam 0 := by
    obtain ⟨c, dc, s, ds, hF⟩ := h.fundamental
    have nr := (hl 0 (lam 0)).mpr rfl
    obtain ⟨m, e1, e2, hm, -⟩ := trace_at_eigen h hd hF (u := (1, 1)) (.inl one_ne_zero) nr
    have sg : sgnL ((1 : ℝ), (1 : ℝ)) * sgnR (img (⟨1, 2, 0, 1⟩ : M2 ℝ) (1, 1)) = 3 := by simp [sgnL, sgnR, img]; norm_num
    rw [sg, pow_zero, one_mul] at hm
    simp only [img, one_mul, mul_one, zero_add] at e1 e2
    have sy := (hF.solC (lam 0)).comb (hF.solS (lam 0)) 1 1
    have iC := hF.initC (lam 0)
    have iS := hF.initS (lam 0)
    have py := ground_pos h (L := (1, 1)) (.inl one_pos) nr sy (by simp [iC.1, iS.1]) (by simp [iC.2, iS.2])
    obtain ⟨K1, hK1, ok1⟩ := h.okOne (lam 0)
    obtain ⟨K2, hK2, ok2⟩ := h.okOne 0
    have gr := green ((lin 1 1).right ok2) (sy.right ok1) (x := 1) ⟨zero_le_one, le_rfl⟩
    have ipos : 0 < ∫ x in (0 : ℝ)..1, (1 + 1 * x) * (1 * c (lam 0) x + 1 * s (lam 0) x) := by
      refine intervalIntegral.intervalIntegral_pos_of_pos_on ?_ (fun x hx => mul_pos (by linarith [hx.1]) (py x hx)) zero_lt_one
      exact ContinuousOn.intervalIntegrable (by rw [Set.uIcc_of_le zero_le_one]; exact ((lin 1 1).right ok2).c1.mul (sy.right ok1).c1)
    simp only [one_mul, iC.1, iC.2, iS.1, iS.2, mul_zero, zero_add, add_zero, e1, e2, sub_zero] at gr ipos
    have : 0 < lam 0 * ∫ x in (0 : ℝ)..1, (1 + x) * (c (lam 0) x + s (lam 0) x) := by rw [← gr]; linarith
    exact pos_of_mul_pos_left this ipos.le
  have zero : P 0 = 0 := by
    obtain ⟨n, hn⟩ := (hP.all 0).mp ⟨fun x => 1 + 0 * x, fun _ => 0, lin 1 0, ⟨0, ⟨le_rfl, zero_le_one⟩, by norm_num⟩, by norm_num [Joined]⟩
    by_cases n1 : 1 ≤ n
    · have := hP.mono n1
      linarith [A.2.1]
    · rw [hn, show n = 0 by omega]
  refine ⟨zero, hA, fun i hi low q => ?_⟩
  have ci : ((i - 1 : ℕ) : ℝ) = (i : ℝ) - 1 := by rw [Nat.cast_sub hi, Nat.cast_one]
  have := (CountsEigenvalues.cmp h1 hl (i - 1) low).2.mp (by rw [ci]; exact ((find_zero o i low).2.1.mp q).1)
  have := mono.monotone (Nat.zero_le (i - 1))
  linarith

/-- Non-vacuity of the example: the list and an oracle with exact angles exist, and the row condition fails. -/
example : ∃ (P : ℕ → ℝ) (o : Oracle ℝ), PeriodicList (fun _ _ => 0) [⟨0, 1, .forward⟩] 0 1 (⟨1, 2, 0, 1⟩ : M2 ℝ) P ∧ o.anti = isAnti (⟨1, 2, 0, 1⟩ : M2 ℝ) ∧ ¬ RowSign ⟨1, 2, 0, 1⟩ ∧
    P 0 = 0 ∧ ∀ i : ℕ, 1 ≤ i → ∀ low, 0 ≤ o.findLow i low → 0 < low := by
  have hd : (⟨1, 2, 0, 1⟩ : M2 ℝ).a * (⟨1, 2, 0, 1⟩ : M2 ℝ).d - (⟨1, 2, 0, 1⟩ : M2 ℝ).b * (⟨1, 2, 0, 1⟩ : M2 ℝ).c = 1 := by norm_num
  obtain ⟨P, ⟨hP, -⟩, -⟩ := C128_numbering free_problem hd
  obtain ⟨o, ho, h1, -⟩ := oracle_exists free_problem hd
  obtain ⟨a, -, c⟩ := C129_lost_example hP o h1
  exact ⟨P, o, hP, ho, by norm_num [RowSign], a, c⟩

/-- Non-vacuity of C130: for the free periodic problem the doubling loops stop for every range of indices, and a conversion to `int` as required exists. -/
example : ∃ (P : ℕ → ℝ) (o : Oracle ℝ), PeriodicList (fun _ _ => 0) [⟨0, 1, .forward⟩] 0 1 (⟨1, 0, 0, 1⟩ : M2 ℝ) P ∧
    (∀ iMin iMax : ℕ, ∃ (fuel : ℕ) (eMin eMax : ℝ),
      doubleWhile (fun E => !CCmp.lt (CCmp.lit (max ((iMin : ℤ) - 2) 0 : ℤ)) (o.minTheta E)) fuel (CCmp.lit (-1)) = .ok eMin ∧
      doubleWhile (fun E => !CCmp.lt (o.maxTheta E) (CCmp.lit ((iMax : ℤ) + 2 : ℤ))) fuel (CCmp.lit 1) = .ok eMax ∧
      ∀ n, iMin ≤ n → n < iMax → eMin ≤ P n ∧ P n < eMax) ∧ (∀ E, -1 < (o.theta E).1 ∧ -1 < (o.theta E).2) := by
  have hd : (⟨1, 0, 0, 1⟩ : M2 ℝ).a * (⟨1, 0, 0, 1⟩ : M2 ℝ).d - (⟨1, 0, 0, 1⟩ : M2 ℝ).b * (⟨1, 0, 0, 1⟩ : M2 ℝ).c = 1 := by norm_num
  have g : RowSign ⟨1, 0, 0, 1⟩ := by norm_num [RowSign]
  obtain ⟨P, ⟨hP, -⟩, -⟩ := C128_numbering free_problem hd
  obtain ⟨o, ho, h1, h2, pos, ⟨F, hF⟩, hG⟩ := oracle_exists free_problem hd
  refine ⟨P, o, hP, fun iMin iMax => ?_, pos⟩
  obtain ⟨G, hG⟩ := hG (iMax + 2)
  obtain ⟨m, hm⟩ := pow_unbounded_of_one_lt (max (-F) G) (one_lt_two : (1 : ℝ) < 2)
  have m1 := (le_max_left (-F) G).trans_lt hm
  have m2 := (le_max_right (-F) G).trans_lt hm
  obtain ⟨eMin, e1⟩ := double_stops (fun E => !CCmp.lt (CCmp.lit (max ((iMin : ℤ) - 2) 0 : ℤ)) (o.minTheta E)) m m (CCmp.lit (-1)) le_rfl (by
    have := hF (-2 ^ m) (by linarith)
    have mx : (0 : ℝ) ≤ (max ((iMin : ℤ) - 2) 0 : ℤ) := by exact_mod_cast le_max_right _ _
    simp only [Oracle.minTheta, stdMin, ccmp_lt, ccmp_lit, decide_eq_true_eq, Bool.not_eq_true', decide_eq_false_iff_not, not_lt]
    push_cast at mx ⊢
    rw [neg_one_mul]
    split_ifs <;> linarith)
  obtain ⟨eMax, e2⟩ := double_stops (fun E => !CCmp.lt (o.maxTheta E) (CCmp.lit ((iMax : ℤ) + 2 : ℤ))) m m (CCmp.lit 1) le_rfl (by
    have := hG (2 ^ m) m2.le
    simp only [Oracle.maxTheta, stdMax, ccmp_lt, ccmp_lit, decide_eq_true_eq, Bool.not_eq_true', decide_eq_false_iff_not, not_lt]
    push_cast at this ⊢
    rw [one_mul]
    split_ifs <;> linarith)
  refine ⟨m, eMin, eMax, e1, e2, fun n n1 n2 => ?_⟩
  have := (C130_window_by_index free_problem hd g hP o h1 h2 iMin iMax m eMin eMax e1 e2 n n1 n2).2 false
  simp only [Range.rejects, ccmp_lt, ccmp_le, Bool.or_eq_false_iff, decide_eq_false_iff_not, not_lt, not_le] at this
  exact ⟨this.1.2, this.2⟩

end Verif.Periodic
