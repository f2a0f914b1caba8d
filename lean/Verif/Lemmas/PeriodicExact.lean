import Verif.Lemmas.PeriodicTurn
import Verif.Props.PeriodicNumbers

/-!
# The periodic search with exact angles and the exact determinant
-/
namespace Verif.Periodic
open Verif.Mesh Verif.YT Verif.Solver

variable {W : Sec ℝ → ℝ → ℝ} {secs : List (Sec ℝ)} {dmin dmax vlo vhi : ℝ}

/-- Width to a zero of the same bracket. -/
theorem rel_width {eps a b x z : ℝ} (he : 0 ≤ eps) (he2 : eps ≤ 1 / 2) (haz : a ≤ z) (hzb : z ≤ b) (hx : x = (a + b) / 2) (hw : b - a ≤ eps * max 1 |a|) : |x - z| ≤ eps * max 1 |z| := by
  have h1 : |x - z| ≤ (b - a) / 2 := by rw [abs_le, hx]; constructor <;> linarith
  have h2 : |a| ≤ |z| + (b - a) := by
    have : |a| ≤ |z| + |a - z| := by
      have := abs_add_le z (a - z)
      rwa [add_sub_cancel] at this
    have : |a - z| ≤ b - a := by rw [abs_le]; constructor <;> linarith
    linarith
  have m0 : 1 ≤ max 1 |a| := le_max_left _ _
  have m1 : 1 ≤ max 1 |z| := le_max_left _ _
  have m2 : |z| ≤ max 1 |z| := le_max_right _ _
  have h3 : max 1 |a| ≤ max 1 |z| + eps * max 1 |a| := max_le (by nlinarith) (by linarith)
  have h4 : max 1 |a| ≤ 2 * max 1 |z| := by nlinarith
  nlinarith

/-- Bisection of a strictly increasing function. -/
theorem bisect_increasing {f : ℝ → ℝ} (hf : StrictMono f) {eps : ℝ} {n : Nat} {eMin eMax x z : ℝ} (he : 0 ≤ eps) (he2 : eps ≤ 1 / 2) (hz : f z = 0) (h0 : f eMin ≤ 0) (h1 : 0 ≤ f eMax)
    (h : bisect' f eps n eMin eMax = .ok x) : |x - z| ≤ eps * max 1 |z| := by
  have hle : eMin ≤ eMax := hf.le_iff_le.mp (h0.trans h1)
  obtain ⟨a, b, fa, ha, hab, hb, hx, hw, hl, hr⟩ := bisect_spec f eps n eMin eMax _ x hle h
  rw [threshold_eq eps a he] at hw
  have hfa : fa = f a ∧ f a ≤ 0 := by
    rcases hl with ⟨rfl, rfl⟩ | ⟨q, s⟩
    · exact ⟨rfl, h0⟩
    · rw [sameSign_iff] at s
      exact ⟨q, by rcases s with s | s <;> linarith [s.1, s.2]⟩
  have haz : a ≤ z := by rw [← hf.le_iff_le, hz]; exact hfa.2
  by_cases hzb : z ≤ b
  · exact rel_width he he2 haz hzb hx hw
  · push Not at hzb
    have fb : f b < 0 := by rw [← hz]; exact hf hzb
    rcases hr with rfl | hr
    · linarith
    · have fa0 : f a < 0 := (hf.monotone hab).trans_lt fb
      have : sameSign fa (f b) = true := by rw [hfa.1, sameSign_iff]; exact .inl ⟨fa0, fb⟩
      rw [this] at hr
      cases hr

/-- Bisection of a continuous function. -/
theorem bisect_continuous {f : ℝ → ℝ} {eps : ℝ} {n : Nat} {eMin eMax x : ℝ} (he : 0 ≤ eps) (he2 : eps ≤ 1 / 2) (hle : eMin ≤ eMax) (hf : ContinuousOn f (Set.Icc eMin eMax))
    (hs : ¬ ((f eMin < 0 ∧ f eMax < 0) ∨ (0 < f eMin ∧ 0 < f eMax))) (h : bisect' f eps n eMin eMax = .ok x) :
    ∃ z ∈ Set.Icc eMin eMax, f z = 0 ∧ |x - z| ≤ eps * max 1 |z| := by
  obtain ⟨a, b, fa, ha, hab, hb, hx, hw, hl, hr⟩ := bisect_spec f eps n eMin eMax _ x hle h
  have hfa : fa = f a := by
    rcases hl with ⟨rfl, rfl⟩ | ⟨h, _⟩
    · rfl
    · exact h
  have hsab : ¬ ((f a < 0 ∧ f b < 0) ∨ (0 < f a ∧ 0 < f b)) := by
    rcases hr with rfl | hr
    · rcases hl with ⟨rfl, _⟩ | ⟨_, h2⟩
      · exact hs
      · rw [sameSign_iff] at h2
        rintro (⟨h3, h4⟩ | ⟨h3, h4⟩)
        · rcases h2 with ⟨h5, _⟩ | ⟨h5, h6⟩
          · exact hs (.inl ⟨h5, h4⟩)
          · linarith
        · rcases h2 with ⟨h5, h6⟩ | ⟨h5, _⟩
          · linarith
          · exact hs (.inr ⟨h5, h4⟩)
    · rw [hfa] at hr
      rw [← sameSign_iff, hr]; simp
  have hcont : ContinuousOn f (Set.Icc a b) := hf.mono (Set.Icc_subset_Icc ha hb)
  have hz : ∃ z ∈ Set.Icc a b, f z = 0 := by
    rcases le_total (f a) 0 with h1 | h1 <;> rcases le_total (f b) 0 with h2 | h2
    · rcases eq_or_lt_of_le h1 with h3 | h3
      · exact ⟨a, ⟨le_rfl, hab⟩, h3⟩
      · rcases eq_or_lt_of_le h2 with h4 | h4
        · exact ⟨b, ⟨hab, le_rfl⟩, h4⟩
        · exact absurd (.inl ⟨h3, h4⟩) hsab
    · exact intermediate_value_Icc hab hcont ⟨h1, h2⟩
    · exact intermediate_value_Icc' hab hcont ⟨h2, h1⟩
    · rcases eq_or_lt_of_le h1 with h3 | h3
      · exact ⟨a, ⟨le_rfl, hab⟩, h3.symm⟩
      · rcases eq_or_lt_of_le h2 with h4 | h4
        · exact ⟨b, ⟨hab, le_rfl⟩, h4.symm⟩
        · exact absurd (.inr ⟨h3, h4⟩) hsab
  obtain ⟨z, ⟨hz1, hz2⟩, hz0⟩ := hz
  rw [threshold_eq eps a he] at hw
  exact ⟨z, ⟨ha.trans hz1, hz2.trans hb⟩, hz0, rel_width he he2 hz1 hz2 hx hw⟩

/-- The bisection of the derivative finds the peak `c`: only its signs on the inner halves `[u, c)` and `(c, v]` matter. -/
theorem bisect_peak {g : ℝ → ℝ} {eps u v c : ℝ} (he : 0 ≤ eps) (he2 : eps ≤ 1 / 2) (up : ∀ E ∈ Set.Ico u c, 0 < g E) (down : ∀ E ∈ Set.Ioc c v, g E < 0) :
    ∀ (n : Nat) (a b fa x : ℝ), 0 < fa → a ≤ c → c ≤ b → u ≤ (a + c) / 2 → (c + b) / 2 ≤ v → bisect g eps n a b fa = .ok x → |x - c| ≤ eps * max 1 |c| := by
  have fin : ∀ (a b x : ℝ), a ≤ c → c ≤ b → ¬ threshold eps a < b - a → (a + b) / 2 = x → |x - c| ≤ eps * max 1 |c| := fun a b x h1 h2 h3 h4 => by
    rw [threshold_eq eps a he] at h3
    exact rel_width he he2 h1 h2 h4.symm (not_lt.mp h3)
  intro n
  induction n with
  | zero =>
    intro a b fa x f0 h1 h2 h3 h4 h
    unfold bisect at h
    by_cases hc : threshold eps a < b - a
    · simp [hc] at h
    · simp only [ccmp_lt, hc, decide_false, Bool.false_eq_true, if_false, Outcome.ok.injEq] at h
      exact fin a b x h1 h2 hc (by rw [← h]; simp)
  | succ n ih =>
    intro a b fa x f0 h1 h2 h3 h4 h
    unfold bisect at h
    by_cases hc : threshold eps a < b - a
    · simp only [ccmp_lt, hc, decide_true, if_true] at h
      have hm : (a + b) / (CCmp.lit 2 : ℝ) = (a + b) / 2 := by simp
      rw [hm] at h
      rcases lt_trichotomy ((a + b) / 2) c with q | q | q
      · have pos := up _ ⟨by linarith, q⟩
        rw [if_pos ((sameSign_iff _ _).mpr (.inr ⟨f0, pos⟩))] at h
        exact ih _ _ _ _ pos q.le h2 (by linarith) h4 h
      · split at h
        · rename_i s
          have pos : 0 < g ((a + b) / 2) := by
            rcases (sameSign_iff _ _).mp s with s | s
            · linarith [s.1]
            · exact s.2
          exact ih _ _ _ _ pos q.le h2 (by linarith) h4 h
        · exact ih _ _ _ _ f0 h1 q.ge h3 (by linarith) h
      · have neg := down _ ⟨q, by linarith⟩
        have s : ¬ sameSign fa (g ((a + b) / 2)) = true := by
          rw [sameSign_iff]
          rintro (s | s) <;> linarith [s.1, s.2]
        rw [if_neg s] at h
        exact ih _ _ _ _ f0 h1 q.le h3 (by linarith) h
    · simp only [ccmp_lt, hc, decide_false, Bool.false_eq_true, if_false, Outcome.ok.injEq] at h
      exact fin a b x h1 h2 hc (by rw [← h]; simp)

/-- The pair search on a bracket `[lo, hi]` that holds exactly two zeros `p ≤ q` of the continuous function `det`, negative outside and not negative between, with a turning point `c` of `det` found by the bisection of `ddet`; only the sign of `ddet` on the inner halves and one finite difference matter. -/
theorem pair_found {det ddet : ℝ → ℝ} {eps : ℝ} {n : Nat} {lo hi p q c : ℝ} {r : ℝ × ℝ} (he : 0 ≤ eps) (he2 : eps ≤ 1 / 2) (hdet : Continuous det)
    (zeros : ∀ E ∈ Set.Icc lo hi, det E = 0 ↔ E = p ∨ E = q) (h1 : lo < p) (h2 : q < hi) (hpc : p ≤ c) (hcq : c ≤ q) (left : ∀ E ∈ Set.Ico lo p, det E < 0) (right : ∀ E ∈ Set.Ioc q hi, det E < 0) (between : ∀ E ∈ Set.Ioo p q, 0 < det E)
    (up : ∀ E ∈ Set.Ico ((lo + c) / 2) c, 0 < ddet E) (down : ∀ E ∈ Set.Ioc c ((c + hi) / 2), ddet E < 0) (rise : det lo < det (lo + 1 / 100 * (hi - lo)))
    (wide : p = q ∨ (eps * max 1 |c| < c - p ∧ eps * max 1 |c| < q - c)) (h : eigenvaluePair det ddet eps n lo hi = .ok r) :
    |r.1 - p| ≤ eps * max 1 |p| ∧ |r.2 - q| ≤ eps * max 1 |q| := by
  have hlh : lo < hi := by linarith
  unfold eigenvaluePair at h
  obtain ⟨mid, hm, h⟩ := Outcome.bind_eq_ok.mp h
  -- the turning point
  have hstep : (0 : ℝ) < 1 / 100 * (hi - lo) := by linarith
  have f0 : 0 < (det (lo + 1 / 100 * (hi - lo)) - det lo) / (1 / 100 * (hi - lo)) := by
    exact div_pos (sub_pos.mpr rise) hstep
  have lit : (CCmp.lit (1 / 100) : ℝ) = 1 / 100 := by simp
  rw [lit] at hm
  have mc : |mid - c| ≤ eps * max 1 |c| := bisect_peak he he2 up down _ _ _ _ _ f0 (by linarith) (by linarith) le_rfl le_rfl hm
  have hmid := C31_result_in_bracket _ _ _ _ _ _ _ hlh.le hm
  have dlo := left lo ⟨le_rfl, h1⟩
  have dhi := right hi ⟨h2, le_rfl⟩
  obtain ⟨mc1, mc2⟩ := abs_le.mp mc
  simp only at h
  split at h
  · rename_i s
    simp only [Outcome.pure_eq, Outcome.ok.injEq] at h
    subst h
    rw [sameSign_iff] at s
    have dm : det mid < 0 := by rcases s with s | s <;> linarith [s.1, s.2]
    rcases wide with rfl | ⟨w1, w2⟩
    · have : c = p := le_antisymm hcq hpc
      subst this
      exact ⟨mc, mc⟩
    · have := between mid ⟨by linarith, by linarith⟩
      linarith
  · rename_i s
    rw [sameSign_iff] at s
    obtain ⟨r1, e1, h⟩ := Outcome.bind_eq_ok.mp h
    obtain ⟨r2, e2, h⟩ := Outcome.bind_eq_ok.mp h
    simp only [Outcome.pure_eq, Outcome.ok.injEq] at h
    subst h
    have dm : 0 ≤ det mid := by
      by_contra hc
      exact s (.inl ⟨dlo, not_le.mp hc⟩)
    obtain ⟨z1, ⟨i1, i2⟩, v1, w1⟩ := bisect_continuous he he2 hmid.1 hdet.continuousOn (by rintro (q | q) <;> linarith [q.1, q.2]) e1
    obtain ⟨z2, ⟨j1, j2⟩, v2, w2⟩ := bisect_continuous he he2 hmid.2 hdet.continuousOn (by rintro (q | q) <;> linarith [q.1, q.2]) e2
    have zz1 := (zeros z1 ⟨i1, i2.trans hmid.2⟩).mp v1
    have zz2 := (zeros z2 ⟨hmid.1.trans j1, j2⟩).mp v2
    rcases wide with rfl | ⟨u1, u2⟩
    · have a1 : z1 = p := by rcases zz1 with e | e <;> exact e
      have a2 : z2 = p := by rcases zz2 with e | e <;> exact e
      subst a1
      rw [a2] at w2
      exact ⟨w1, w2⟩
    · have a1 : z1 = p := by
        rcases zz1 with e | e
        · exact e
        · exfalso; linarith
      have a2 : z2 = q := by
        rcases zz2 with e | e
        · exfalso; linarith
        · exact e
      subst a1 a2
      exact ⟨w1, w2⟩

/-- The oracle of a bounded problem in exact arithmetic: both angles count eigenvalues, the determinant is that of the matching error at any point, `-2 det (Φ - K)` (C107), and the third function is its derivative. -/
structure ExactOracle (W : Sec ℝ → ℝ → ℝ) (secs : List (Sec ℝ)) (dmin dmax : ℝ) (k : M2 ℝ) (o : Oracle ℝ) : Prop where
  anti : o.anti = isAnti k
  first : CountsEigenvalues W secs dmin dmax (1, 1) (img k (1, 1)) fun E => (o.theta E).1
  second : CountsEigenvalues W secs dmin dmax (1, -1) (img k (1, -1)) fun E => (o.theta E).2
  det : ∃ c dc s ds, Fundamental W secs dmin c dc s ds ∧ ∀ E, o.det E = -2 * perDet k (c E dmax) (dc E dmax) (s E dmax) (ds E dmax)
  deriv : ∀ E, HasDerivAt o.det (o.ddet E) E

/-- `x` is the zero `z` of `f` up to the tolerance of the bisection. -/
def Near (f : ℝ → ℝ) (eps x : ℝ) : Prop := ∃ z, f z = 0 ∧ |x - z| ≤ eps * max 1 |z|

/-- In every bracket that the search can produce for the number `i`, the derivative of the determinant changes sign at one peak `c` in the inner half of the bracket, and the first finite difference is positive; the eigenvalues of the pair coincide or are farther than the tolerance from the peak. -/
def Peak (o : Oracle ℝ) (P : ℕ → ℝ) (eps : ℝ) (i : ℕ) : Prop :=
  ∃ c, P (i - 1) ≤ c ∧ c ≤ P i ∧ (P (i - 1) = P i ∨ (eps * max 1 |c| < c - P (i - 1) ∧ eps * max 1 |c| < P i - c)) ∧
    ∀ low high, Near (o.findLow i) eps low → Near (o.findHigh i) eps high →
      (∀ E ∈ Set.Ico ((low + c) / 2) c, 0 < o.ddet E) ∧ (∀ E ∈ Set.Ioc c ((c + high) / 2), o.ddet E < 0) ∧ o.det low < o.det (low + 1 / 100 * (high - low))

/-- No eigenvalue is within the tolerance of an end of the bracket. -/
def Margin (o : Oracle ℝ) (P : ℕ → ℝ) (eps : ℝ) (i : ℕ) : Prop :=
  ∀ z, (o.findLow i z = 0 ∨ o.findHigh i z = 0) → ∀ n, eps * max 1 |z| < |z - P n|

theorem one_side {f : ℝ → ℝ} (hf : Continuous f) {I : Set ℝ} (hI : I.OrdConnected) (h0 : ∀ x ∈ I, f x ≠ 2) {x : ℝ} (hx : x ∈ I) (h1 : f x < 2) : ∀ y ∈ I, f y < 2 := fun y hy => by
  by_contra hc
  push Not at hc
  rcases le_total x y with hxy | hxy
  · obtain ⟨z, hz, e⟩ := intermediate_value_Icc hxy hf.continuousOn ⟨h1.le, hc⟩
    exact h0 z (hI.out hx hy hz) e
  · obtain ⟨z, hz, e⟩ := intermediate_value_Icc' hxy hf.continuousOn ⟨h1.le, hc⟩
    exact h0 z (hI.out hy hx hz) e

theorem strict_theta {o : Oracle ℝ} (h1 : StrictMono fun E => (o.theta E).1) (h2 : StrictMono fun E => (o.theta E).2) : StrictMono o.minTheta ∧ StrictMono o.maxTheta := by
  refine ⟨fun x y hxy => ?_, fun x y hxy => ?_⟩ <;>
  · have a := h1 hxy
    have b := h2 hxy
    simp only [Oracle.minTheta, Oracle.maxTheta, stdMin, stdMax, ccmp_lt, decide_eq_true_eq]
    split_ifs <;> linarith

/-- The facts about one number of the loop. -/
structure PairFacts (W : Sec ℝ → ℝ → ℝ) (secs : List (Sec ℝ)) (dmin dmax : ℝ) (k : M2 ℝ) (P : ℕ → ℝ) (o : Oracle ℝ) (i : ℕ) (zL zH : ℝ) : Prop where
  lowZero : o.findLow i zL = 0
  highZero : o.findHigh i zH = 0
  monoL : StrictMono (o.findLow i)
  monoH : StrictMono (o.findHigh i)
  before : zL < P (i - 1)
  after : P i < zH
  prev : ∀ n, n + 2 ≤ i → P n < zL
  next : zH < P (i + 1)
  left : ∀ E < P (i - 1), (∀ n, n + 2 ≤ i → P n < E) → o.det E < 0
  right : ∀ E, P i < E → E < P (i + 1) → o.det E < 0
  between : ∀ E ∈ Set.Ioo (P (i - 1)) (P i), 0 < o.det E
  zeros : ∀ E, o.det E = 0 ↔ ∃ n, E = P n

theorem pair_facts (h : BoundedProblem W secs dmin dmax vlo vhi) {k : M2 ℝ} (hk : k.a * k.d - k.b * k.c = 1) (g : RowSign k) {P : ℕ → ℝ} (hP : PeriodicList W secs dmin dmax k P) {o : Oracle ℝ}
    (ho : ExactOracle W secs dmin dmax k o) {i : ℕ} (hi : 1 ≤ i) (par : i % 2 = if isAnti k then 1 else 0) : ∃ zL zH, PairFacts W secs dmin dmax k P o i zL zH := by
  obtain ⟨P', ⟨hP', hI⟩, -⟩ := C128_numbering h hk
  obtain rfl := PeriodicList.unique hP hP'
  obtain ⟨c, dc, s, ds, hF, hdet⟩ := ho.det
  have hfl := floquet h hk hF (0, 1)
  obtain ⟨f, hf⟩ : ∃ f : ℝ → ℝ, f = fun E => trK k (c E dmax) (dc E dmax) (s E dmax) (ds E dmax) := ⟨_, rfl⟩
  rw [← hf] at hfl
  have hcont : Continuous f := hfl.cont
  have hd : ∀ E, o.det E = 2 * (f E - 2) := fun E => by
    obtain ⟨-, -, -, -, -, -, -, -, -, -, -, det, -⟩ := monodromy_deriv h hF E
    rw [hdet E, perDet_eq hk det, hf]; ring
  have roots : ∀ E, f E = 2 ↔ ∃ n, E = P n := fun E => by
    rw [← hP.all E]
    obtain ⟨K, hK, ok⟩ := h.okOne E
    obtain ⟨-, -, -, -, -, -, -, -, -, -, -, det, -⟩ := monodromy_deriv h hF E
    rw [← perDet_zero hK h.lt ok k (hF.solC E) (hF.solS E) (hF.initC E) (hF.initS E), perDet_eq hk det, hf]
    constructor <;> intro q <;> linarith
  have u1 : ((1 : ℝ), (1 : ℝ)).1 ≠ 0 ∨ ((1 : ℝ), (1 : ℝ)).2 ≠ 0 := .inl one_ne_zero
  have u2 : ((1 : ℝ), (-1 : ℝ)).1 ≠ 0 ∨ ((1 : ℝ), (-1 : ℝ)).2 ≠ 0 := .inl one_ne_zero
  obtain ⟨lam, lm, hl, -⟩ := separated_numbers h hk u1
  obtain ⟨mu, mm, hm, -⟩ := separated_numbers h hk u2
  have A := hI _ u1 lam hl
  have A' := hI _ u2 mu hm
  have S1 := sep_of_problem h hk hF u1 hl
  have S2 := sep_of_problem h hk hF u2 hm
  rw [← hf] at S1 S2
  have gd := row_good g
  have s1 : sgnL ((1 : ℝ), (1 : ℝ)) * sgnR (img k (1, 1)) = if k.a + k.b = 0 then -(k.c + k.d) else k.a + k.b := by simp [sgnL, sgnR, img]
  have s2 : sgnL ((1 : ℝ), (-1 : ℝ)) * sgnR (img k (1, -1)) = if k.a - k.b = 0 then -(k.c - k.d) else k.a - k.b := by simp [sgnL, sgnR, img, sub_eq_add_neg]
  -- for each of the two separated problems
  have one : ∀ (t : ℝ) (nu : ℕ → ℝ), (k.a + k.b * t ≠ 0 → sgnL ((1 : ℝ), t) * sgnR (img k (1, t)) = k.a + k.b * t) → (if isAnti k then k.a + k.b * t < 0 else 0 < k.a + k.b * t) →
      (∀ n E, IsEigenvalueNr W secs dmin dmax (1, t) (img k (1, t)) n E ↔ E = nu n) →
      (nu (i - 1) < P (i - 1) ∧ P i < nu (i + 1) ∧ (∀ n, n + 2 ≤ i → P n < nu (i - 1)) ∧ nu (i + 1) < P (i + 1)) ∧ f (nu (i - 1)) < 2 ∧ f (nu (i + 1)) < 2 := by
    intro t nu s hs hn
    have ut : ((1 : ℝ), t).1 ≠ 0 ∨ ((1 : ℝ), t).2 ≠ 0 := .inl one_ne_zero
    obtain ⟨-, B, C, -⟩ := hI _ ut nu hn
    have S := sep_of_problem h hk hF ut hn
    rw [← hf] at S
    cases hA : isAnti k with
    | true =>
      rw [hA, if_pos rfl] at par hs
      rw [s hs.ne] at S B
      rw [decide_eq_false (not_lt.mpr hs.le)] at S
      obtain ⟨j, rfl⟩ : ∃ j, i = 2 * j + 1 := ⟨i / 2, by omega⟩
      have b := B hA hs
      have e0 := S.even j
      have e1 := S.even (j + 1)
      simp only [Bool.false_eq_true, if_false] at e0 e1
      refine ⟨⟨(b j).1, (b j).2.2.2, fun n hn => ?_, (b (j + 1)).1⟩, by rw [show 2 * j + 1 - 1 = 2 * j by omega]; linarith, by rw [show 2 * j + 1 + 1 = 2 * (j + 1) by omega]; linarith⟩
      obtain ⟨m, rfl⟩ : ∃ m, j = m + 1 := ⟨j - 1, by omega⟩
      exact (hP.mono (show n ≤ 2 * m + 1 by omega)).trans_lt (b m).2.2.2
    | false =>
      rw [hA, if_neg (by simp)] at par hs
      rw [s hs.ne'] at S C
      rw [decide_eq_true hs] at S
      obtain ⟨j, rfl⟩ : ∃ j, i = 2 * j + 2 := ⟨i / 2 - 1, by omega⟩
      have b := C hA hs
      have e0 := S.odd j
      have e1 := S.odd (j + 1)
      simp only [if_true] at e0 e1
      refine ⟨⟨(b j).2.2.1, (b (j + 1)).2.1, fun n hn => ?_, (b (j + 1)).2.2.1⟩, by rw [show 2 * j + 2 - 1 = 2 * j + 1 by omega]; linarith, by rw [show 2 * j + 2 + 1 = 2 * (j + 1) + 1 by omega]; linarith⟩
      exact (hP.mono (show n ≤ 2 * j by omega)).trans_lt (b j).2.1
  obtain ⟨⟨a1, a2, a3, a4⟩, a5, a6⟩ := one 1 lam (fun z => by rw [s1, if_neg (by rwa [mul_one] at z), mul_one]) (by split_ifs at gd ⊢ <;> linarith [gd.1]) hl
  obtain ⟨⟨b1, b2, b3, b4⟩, b5, b6⟩ := one (-1) mu (fun z => by rw [s2, if_neg (by intro e; apply z; linarith)]; ring) (by split_ifs at gd ⊢ <;> linarith [gd.2]) hm
  obtain ⟨m1, m2⟩ := strict_theta ho.first.mono ho.second.mono
  have ci : ((i - 1 : ℕ) : ℝ) = (i : ℝ) - 1 := by rw [Nat.cast_sub hi, Nat.cast_one]
  have cj : ((i + 1 : ℕ) : ℝ) = (i : ℝ) + 1 := by push_cast; ring
  -- the zeros
  have exL : ∃ z, o.findLow i z = 0 ∧ z < P (i - 1) ∧ (∀ n, n + 2 ≤ i → P n < z) ∧ f z < 2 := by
    have v1 := (CountsEigenvalues.cmp ho.first hl (i - 1) (lam (i - 1)))
    have v2 := (CountsEigenvalues.cmp ho.second hm (i - 1) (mu (i - 1)))
    rw [ci] at v1 v2
    have w := fun E => find_zero o i E
    rcases le_total (lam (i - 1)) (mu (i - 1)) with q | q
    · exact ⟨mu (i - 1), le_antisymm ((w _).1.mpr (.inr (v2.1.mpr le_rfl))) ((w _).2.1.mpr ⟨by have := (CountsEigenvalues.cmp ho.first hl (i - 1) (mu (i - 1))).2.mpr q; rwa [ci] at this, v2.2.mpr le_rfl⟩), b1, b3, b5⟩
    · exact ⟨lam (i - 1), le_antisymm ((w _).1.mpr (.inl (v1.1.mpr le_rfl))) ((w _).2.1.mpr ⟨v1.2.mpr le_rfl, by have := (CountsEigenvalues.cmp ho.second hm (i - 1) (lam (i - 1))).2.mpr q; rwa [ci] at this⟩), a1, a3, a5⟩
  have exH : ∃ z, o.findHigh i z = 0 ∧ P i < z ∧ z < P (i + 1) ∧ f z < 2 := by
    have v1 := (CountsEigenvalues.cmp ho.first hl (i + 1) (lam (i + 1)))
    have v2 := (CountsEigenvalues.cmp ho.second hm (i + 1) (mu (i + 1)))
    rw [cj] at v1 v2
    have w := fun E => find_zero o i E
    rcases le_total (lam (i + 1)) (mu (i + 1)) with q | q
    · exact ⟨lam (i + 1), le_antisymm ((w _).2.2.1.mpr ⟨v1.1.mpr le_rfl, by have := (CountsEigenvalues.cmp ho.second hm (i + 1) (lam (i + 1))).1.mpr q; rwa [cj] at this⟩) ((w _).2.2.2.mpr (.inl (v1.2.mpr le_rfl))), a2, a4, a6⟩
    · exact ⟨mu (i + 1), le_antisymm ((w _).2.2.1.mpr ⟨by have := (CountsEigenvalues.cmp ho.first hl (i + 1) (mu (i + 1))).1.mpr q; rwa [cj] at this, v2.1.mpr le_rfl⟩) ((w _).2.2.2.mpr (.inr (v2.2.mpr le_rfl))), b2, b4, b6⟩
  obtain ⟨zL, l1, l2, l3, l4⟩ := exL
  obtain ⟨zH, r1, r2, r3, r4⟩ := exH
  -- signs
  have left : ∀ E < P (i - 1), (∀ n, n + 2 ≤ i → P n < E) → f E < 2 := fun E e1 e2 => by
    refine one_side hcont (I := {x | x < P (i - 1) ∧ ∀ n, n + 2 ≤ i → P n < x}) ⟨fun x hx y hy z hz => ⟨hz.2.trans_lt hy.1, fun n hn => (hx.2 n hn).trans_le hz.1⟩⟩ (fun x hx e => ?_) ⟨l2, l3⟩ l4 E ⟨e1, e2⟩
    obtain ⟨n, rfl⟩ := (roots x).mp e
    by_cases n1 : n + 2 ≤ i
    · exact lt_irrefl _ (hx.2 n n1)
    · exact not_le.mpr hx.1 (hP.mono (by omega))
  have right : ∀ E, P i < E → E < P (i + 1) → f E < 2 := fun E e1 e2 => by
    refine one_side hcont (I := Set.Ioo (P i) (P (i + 1))) Set.ordConnected_Ioo (fun x hx e => ?_) ⟨r2, r3⟩ r4 E ⟨e1, e2⟩
    obtain ⟨n, rfl⟩ := (roots x).mp e
    by_cases n1 : n ≤ i
    · exact not_le.mpr hx.1 (hP.mono n1)
    · exact not_le.mpr hx.2 (hP.mono (by omega))
  have between : ∀ E ∈ Set.Ioo (P (i - 1)) (P i), 2 < f E := fun E hE => by
    have hlt : P (i - 1) < P i := hE.1.trans hE.2
    have e0 : f (P (i - 1)) = 2 := (roots _).mpr ⟨_, rfl⟩
    have none : ∀ x ∈ Set.Ioo (P (i - 1)) (P i), f x ≠ 2 := fun x hx e => by
      obtain ⟨n, rfl⟩ := (roots x).mp e
      by_cases n1 : n ≤ i - 1
      · exact not_le.mpr hx.1 (hP.mono n1)
      · exact not_le.mpr hx.2 (hP.mono (by omega))
    by_contra hc
    have lt : f E < 2 := lt_of_le_of_ne (not_lt.mp hc) (none E hE)
    have all := one_side hcont Set.ordConnected_Ioo none hE lt
    have nd : ¬ IsDoubleEigenvalue W secs dmin dmax k (P (i - 1)) := fun d => by
      rcases (hP.double (i - 1)).mp d with q | ⟨m, q, e⟩
      · rw [show i - 1 + 1 = i by omega] at q; exact hlt.ne q
      · have := l3 m (by omega)
        rw [e] at this
        linarith
    obtain ⟨d, dne, hd'⟩ := hfl.simple _ e0 nd
    -- a local maximum has derivative zero
    have : IsLocalMax f (P (i - 1)) := by
      have : ∀ᶠ x in nhds (P (i - 1)), x ∈ Set.Ioo zL (P i) := Ioo_mem_nhds l2 hlt
      filter_upwards [this] with x hx
      rw [e0]
      rcases lt_trichotomy x (P (i - 1)) with q | q | q
      · exact (left x q fun n hn => (l3 n hn).trans hx.1).le
      · rw [q, e0]
      · exact (all x ⟨q, hx.2⟩).le
    exact dne (this.hasDerivAt_eq_zero hd')
  refine ⟨zL, zH, l1, r1, fun x y hxy => ?_, fun x y hxy => ?_, l2, r2, l3, r3, fun E e1 e2 => ?_, fun E e1 e2 => ?_, fun E hE => ?_, fun E => ?_⟩
  · have := m1 hxy
    simp only [Oracle.findLow]; linarith
  · have := m2 hxy
    simp only [Oracle.findHigh]; linarith
  · rw [hd]; linarith [left E e1 e2]
  · rw [hd]; linarith [right E e1 e2]
  · rw [hd]; linarith [between E hE]
  · rw [hd, ← roots]
    constructor <;> intro q <;> linarith

end Verif.Periodic
