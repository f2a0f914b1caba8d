import Verif.Model.Periodic
import Verif.Props.Propagate
import Mathlib.Topology.Order.IntermediateValue
import Mathlib.Algebra.Order.Archimedean.Basic
import Mathlib.Tactic.FieldSimp
import Mathlib.Tactic.Positivity
import Mathlib.Tactic.NormNum

/-!
# Periodic problems: C31–C34, C71, C72
-/
namespace Verif.Periodic
open Verif.YT Verif.Propag Verif.Mesh

/-! ## C31 -/
section bisect
variable {K : Type} [Field K] [LinearOrder K] [IsStrictOrderedRing K]

theorem absK_eq (x : K) : absK x = |x| := by
  unfold absK
  by_cases h : x < 0
  · simp [h, abs_of_neg h]
  · simp [h, abs_of_nonneg (not_lt.mp h)]

theorem threshold_eq (eps e : K) (h : 0 ≤ eps) : threshold eps e = eps * max 1 |e| := by
  unfold threshold
  rw [absK_eq]
  by_cases h1 : |e| < 1
  · simp [h1, max_eq_left h1.le]
  · simp [h1, max_eq_right (not_lt.mp h1)]

theorem threshold_ge (eps e : K) (h : 0 ≤ eps) : eps ≤ threshold eps e := by
  rw [threshold_eq eps e h]
  exact le_mul_of_one_le_right h (le_max_left _ _)

theorem sameSign_iff (a b : K) : sameSign a b = true ↔ (a < 0 ∧ b < 0) ∨ (0 < a ∧ 0 < b) := by
  simp [sameSign]

theorem bisect_mono (f : K → K) (eps : K) : ∀ (n m : Nat) (eMin eMax fMin x : K), n ≤ m →
    bisect f eps n eMin eMax fMin = .ok x → bisect f eps m eMin eMax fMin = .ok x := by
  intro n
  induction n with
  | zero =>
    intro m eMin eMax fMin x _ h
    unfold bisect at h ⊢
    by_cases hc : threshold eps eMin < eMax - eMin
    · simp [hc] at h
    · simpa [hc] using h
  | succ n ih =>
    intro m eMin eMax fMin x hm h
    obtain ⟨m, rfl⟩ : ∃ k, m = k + 1 := ⟨m - 1, by omega⟩
    unfold bisect at h ⊢
    by_cases hc : threshold eps eMin < eMax - eMin
    · simp only [ccmp_lt, hc, decide_true, if_true] at h ⊢
      split at h
      · rename_i hs; rw [if_pos hs]; exact ih _ _ _ _ _ (by omega) h
      · rename_i hs; rw [if_neg hs]; exact ih _ _ _ _ _ (by omega) h
    · simpa [hc] using h

theorem bisect_terminates (f : K → K) (eps : K) (heps : 0 < eps) : ∀ (n : Nat) (eMin eMax fMin : K),
    (eMax - eMin) / 2 ^ n ≤ eps → ∃ x, bisect f eps n eMin eMax fMin = .ok x := by
  intro n
  induction n with
  | zero =>
    intro eMin eMax fMin h
    have : ¬ threshold eps eMin < eMax - eMin := not_lt.mpr (by
      have := threshold_ge eps eMin heps.le
      simp at h; linarith)
    refine ⟨(eMin + eMax) / CCmp.lit 2, ?_⟩
    unfold bisect
    simp only [ccmp_lt, this, decide_false, Bool.false_eq_true, if_false]
  | succ n ih =>
    intro eMin eMax fMin h
    have e : ∀ a b : K, b - a = (eMax - eMin) / 2 → (b - a) / 2 ^ n ≤ eps := by
      intro a b hab
      rw [hab, div_div, ← pow_succ']
      exact h
    unfold bisect
    split
    · simp only
      split
      · exact ih _ _ _ (e _ _ (by simp; ring))
      · exact ih _ _ _ (e _ _ (by simp; ring))
    · exact ⟨_, rfl⟩

/-- **C31**: the bisection terminates for every function (continuous or not, whatever value of `fMin`),
every bracket and every `eps > 0`, with a result that does not depend on how long it was allowed to
run. -/
theorem C31_bisection_terminates [Archimedean K] (f : K → K) (eps eMin eMax fMin : K) (heps : 0 < eps) :
    ∃ (n : Nat) (x : K), ∀ fuel, n ≤ fuel → bisect f eps fuel eMin eMax fMin = .ok x := by
  obtain ⟨n, hn⟩ := pow_unbounded_of_one_lt ((eMax - eMin) / eps) (one_lt_two (α := K))
  have h : (eMax - eMin) / 2 ^ n ≤ eps := by
    rw [div_lt_iff₀ heps] at hn
    rw [div_le_iff₀ (by positivity)]
    linarith
  obtain ⟨x, hx⟩ := bisect_terminates f eps heps n eMin eMax fMin h
  exact ⟨n, x, fun fuel hf => bisect_mono f eps n fuel eMin eMax fMin x hf hx⟩

/-- What the loop keeps and how it ends: a final bracket `[a, b]` inside the initial one, whose left
end is the initial one or a point where `f` has the sign of `fMin`, whose right end is the initial one
or a point where it has not, and whose width is at most the stopping width. -/
theorem bisect_spec (f : K → K) (eps : K) : ∀ (n : Nat) (eMin eMax fMin x : K), eMin ≤ eMax →
    bisect f eps n eMin eMax fMin = .ok x →
    ∃ a b fa, eMin ≤ a ∧ a ≤ b ∧ b ≤ eMax ∧ x = (a + b) / 2 ∧ b - a ≤ threshold eps a ∧
      ((a = eMin ∧ fa = fMin) ∨ (fa = f a ∧ sameSign fMin (f a) = true)) ∧
      (b = eMax ∨ sameSign fa (f b) = false) := by
  have trans : ∀ u v w : K, sameSign u v = true → sameSign v w = true → sameSign u w = true := by
    intro u v w
    simp only [sameSign_iff]
    rintro (⟨h1, h2⟩ | ⟨h1, h2⟩) (⟨h3, h4⟩ | ⟨h3, h4⟩)
    · exact .inl ⟨h1, h4⟩
    · exact absurd h2 (not_lt.mpr h3.le)
    · exact absurd h2 (not_lt.mpr h3.le)
    · exact .inr ⟨h1, h4⟩
  have cong : ∀ u v w : K, sameSign u v = true → sameSign u w = false → sameSign v w = false := by
    intro u v w h1 h2
    by_contra h
    rw [Bool.not_eq_false] at h
    rw [trans u v w h1 h] at h2
    exact absurd h2 (by simp)
  intro n
  induction n with
  | zero =>
    intro eMin eMax fMin x hle h
    unfold bisect at h
    by_cases hc : threshold eps eMin < eMax - eMin
    · simp [hc] at h
    · simp only [ccmp_lt, hc, decide_false, Bool.false_eq_true, if_false, Outcome.ok.injEq] at h
      exact ⟨eMin, eMax, fMin, le_rfl, hle, le_rfl, by rw [← h]; simp, not_lt.mp hc, .inl ⟨rfl, rfl⟩, .inl rfl⟩
  | succ n ih =>
    intro eMin eMax fMin x hle h
    unfold bisect at h
    by_cases hc : threshold eps eMin < eMax - eMin
    · simp only [ccmp_lt, hc, decide_true, if_true] at h
      have hm : (eMin + eMax) / (CCmp.lit 2 : K) = (eMin + eMax) / 2 := by simp
      rw [hm] at h
      have h1 : eMin ≤ (eMin + eMax) / 2 := by linarith
      have h2 : (eMin + eMax) / 2 ≤ eMax := by linarith
      split at h
      · rename_i hs
        obtain ⟨a, b, fa, ha, hab, hb, hx, hw, hl, hr⟩ := ih _ _ _ _ h2 h
        refine ⟨a, b, fa, h1.trans ha, hab, hb, hx, hw, .inr ?_, hr⟩
        rcases hl with ⟨rfl, rfl⟩ | ⟨hl, hl'⟩
        · exact ⟨rfl, hs⟩
        · exact ⟨hl, trans _ _ _ hs hl'⟩
      · rename_i hs
        obtain ⟨a, b, fa, ha, hab, hb, hx, hw, hl, hr⟩ := ih _ _ _ _ h1 h
        refine ⟨a, b, fa, ha, hab, hb.trans h2, hx, hw, hl, .inr ?_⟩
        rcases hr with rfl | hr
        · rw [Bool.not_eq_true] at hs
          rcases hl with ⟨_, rfl⟩ | ⟨hl, hl'⟩
          · exact hs
          · rw [hl]; exact cong _ _ _ hl' hs
        · exact hr
    · simp only [ccmp_lt, hc, decide_false, Bool.false_eq_true, if_false, Outcome.ok.injEq] at h
      exact ⟨eMin, eMax, fMin, le_rfl, hle, le_rfl, by rw [← h]; simp, not_lt.mp hc, .inl ⟨rfl, rfl⟩, .inl rfl⟩

/-- **C31**: the result lies in the bracket. -/
theorem C31_result_in_bracket (f : K → K) (eps : K) (n : Nat) (eMin eMax fMin x : K) (hle : eMin ≤ eMax)
    (h : bisect f eps n eMin eMax fMin = .ok x) : eMin ≤ x ∧ x ≤ eMax := by
  obtain ⟨a, b, _, ha, hab, hb, hx, -⟩ := bisect_spec f eps n eMin eMax fMin x hle h
  rw [hx]
  constructor <;> linarith

end bisect

/-- **C31**: if `f` is continuous on the bracket and does not have the same strict sign at its two ends,
the result is within half of `eps * max(1, |a|)` of a zero of `f` in the bracket, where `a ≤ x` is the
final left end. -/
theorem C31_zero_nearby (f : ℝ → ℝ) (eps : ℝ) (n : Nat) (eMin eMax x : ℝ) (heps : 0 ≤ eps) (hle : eMin ≤ eMax)
    (hf : ContinuousOn f (Set.Icc eMin eMax))
    (hs : ¬ ((f eMin < 0 ∧ f eMax < 0) ∨ (0 < f eMin ∧ 0 < f eMax)))
    (h : bisect' f eps n eMin eMax = .ok x) :
    ∃ z a, z ∈ Set.Icc eMin eMax ∧ f z = 0 ∧ a ∈ Set.Icc eMin x ∧ |x - z| ≤ eps * max 1 |a| / 2 := by
  obtain ⟨a, b, fa, ha, hab, hb, hx, hw, hl, hr⟩ := bisect_spec f eps n eMin eMax _ x hle h
  have hfa : fa = f a := by
    rcases hl with ⟨rfl, rfl⟩ | ⟨h, _⟩
    · rfl
    · exact h
  have hsab : ¬ ((f a < 0 ∧ f b < 0) ∨ (0 < f a ∧ 0 < f b)) := by
    rcases hr with rfl | hr
    · rcases hl with ⟨rfl, _⟩ | ⟨_, h2⟩
      · exact hs
      · rw [sameSign_iff] at h2
        rintro (⟨h3, h4⟩ | ⟨h3, h4⟩)
        · rcases h2 with ⟨h5, _⟩ | ⟨h5, h6⟩
          · exact hs (.inl ⟨h5, h4⟩)
          · exact absurd h6 (not_lt.mpr h3.le)
        · rcases h2 with ⟨h5, h6⟩ | ⟨h5, _⟩
          · exact absurd h6 (not_lt.mpr h3.le)
          · exact hs (.inr ⟨h5, h4⟩)
    · rw [hfa] at hr
      rw [← sameSign_iff, hr]; simp
  have hcont : ContinuousOn f (Set.Icc a b) := hf.mono (Set.Icc_subset_Icc ha hb)
  have hz : ∃ z ∈ Set.Icc a b, f z = 0 := by
    rcases le_total (f a) 0 with h1 | h1 <;> rcases le_total (f b) 0 with h2 | h2
    · rcases eq_or_lt_of_le h1 with h3 | h3
      · exact ⟨a, ⟨le_rfl, hab⟩, h3⟩
      · rcases eq_or_lt_of_le h2 with h4 | h4
        · exact ⟨b, ⟨hab, le_rfl⟩, h4⟩
        · exact absurd (.inl ⟨h3, h4⟩) hsab
    · exact intermediate_value_Icc hab hcont ⟨h1, h2⟩
    · exact intermediate_value_Icc' hab hcont ⟨h2, h1⟩
    · rcases eq_or_lt_of_le h1 with h3 | h3
      · exact ⟨a, ⟨le_rfl, hab⟩, h3.symm⟩
      · rcases eq_or_lt_of_le h2 with h4 | h4
        · exact ⟨b, ⟨hab, le_rfl⟩, h4.symm⟩
        · exact absurd (.inr ⟨h3, h4⟩) hsab
  obtain ⟨z, ⟨hz1, hz2⟩, hz0⟩ := hz
  refine ⟨z, a, ⟨ha.trans hz1, hz2.trans hb⟩, hz0, ⟨ha, by rw [hx]; linarith⟩, ?_⟩
  rw [threshold_eq eps a heps] at hw
  rw [abs_le, hx]
  constructor <;> linarith

/-- Non-vacuity: the hypotheses of `C31_zero_nearby` hold for `E ↦ E² - 2` on `[0, 2]`. -/
example : ContinuousOn (fun E : ℝ => E ^ 2 - 2) (Set.Icc 0 2) ∧
    ¬ (((0:ℝ) ^ 2 - 2 < 0 ∧ (2:ℝ) ^ 2 - 2 < 0) ∨ (0 < (0:ℝ) ^ 2 - 2 ∧ 0 < (2:ℝ) ^ 2 - 2)) :=
  ⟨by fun_prop, by norm_num⟩

/-- And the bisection of `E² - 2` with `eps = 1/8` returns 23/16. -/
example : bisect' (fun E : ℚ => E ^ 2 - 2) (1/8) 10 0 2 = .ok (23/16) := by decide +kernel

/-! ## C71: pairs of eigenvalues -/

section pair
variable {K : Type} [Field K] [LinearOrder K] [IsStrictOrderedRing K]

/-- **C71**: the two energies of `eigenvaluePair` are ordered and lie in the bracket. -/
theorem C71_pair_ordered (det ddet : K → K) (eps : K) (n : Nat) (Emin Emax : K) (p : K × K)
    (hle : Emin ≤ Emax) (h : eigenvaluePair det ddet eps n Emin Emax = .ok p) :
    Emin ≤ p.1 ∧ p.1 ≤ p.2 ∧ p.2 ≤ Emax := by
  unfold eigenvaluePair at h
  obtain ⟨mid, hm, h⟩ := Outcome.bind_eq_ok.mp h
  have hmid := C31_result_in_bracket _ _ _ _ _ _ _ hle hm
  simp only at h
  split at h
  · simp only [Outcome.pure_eq, Outcome.ok.injEq] at h
    subst h
    exact ⟨hmid.1, le_rfl, hmid.2⟩
  · obtain ⟨q1, h1, h⟩ := Outcome.bind_eq_ok.mp h
    obtain ⟨q2, h2, h⟩ := Outcome.bind_eq_ok.mp h
    simp only [Outcome.pure_eq, Outcome.ok.injEq] at h
    subst h
    have b1 := C31_result_in_bracket _ _ _ _ _ _ _ hmid.1 h1
    have b2 := C31_result_in_bracket _ _ _ _ _ _ _ hmid.2 h2
    exact ⟨b1.1, b1.2.trans b2.1, b2.2⟩

end pair

/-- **C71**: when the pair is split (`p.1 ≠ p.2`) the first energy is close to a zero of the
determinant; if in addition the determinant has the sign of `Emin`'s value at `Emax` (or is zero at one
of them), so is the second, and the two zeros lie on different sides of a common point. -/
theorem C71_pair_near_zeros (det ddet : ℝ → ℝ) (eps : ℝ) (n : Nat) (Emin Emax : ℝ) (p : ℝ × ℝ)
    (heps : 0 ≤ eps) (hle : Emin ≤ Emax) (hdet : ContinuousOn det (Set.Icc Emin Emax))
    (h : eigenvaluePair det ddet eps n Emin Emax = .ok p) (hne : p.1 ≠ p.2) :
    ∃ mid ∈ Set.Icc Emin Emax,
      (∃ z a, z ∈ Set.Icc Emin mid ∧ det z = 0 ∧ a ∈ Set.Icc Emin p.1 ∧ |p.1 - z| ≤ eps * max 1 |a| / 2) ∧
      (0 ≤ det Emin * det Emax → det Emin ≠ 0 →
        ∃ z a, z ∈ Set.Icc mid Emax ∧ det z = 0 ∧ a ∈ Set.Icc mid p.2 ∧ |p.2 - z| ≤ eps * max 1 |a| / 2) := by
  unfold eigenvaluePair at h
  obtain ⟨mid, hm, h⟩ := Outcome.bind_eq_ok.mp h
  have hmid := C31_result_in_bracket _ _ _ _ _ _ _ hle hm
  simp only at h
  split at h
  · simp only [Outcome.pure_eq, Outcome.ok.injEq] at h
    subst h
    exact absurd rfl hne
  · rename_i hss
    rw [sameSign_iff] at hss
    obtain ⟨q1, h1, h⟩ := Outcome.bind_eq_ok.mp h
    obtain ⟨q2, h2, h⟩ := Outcome.bind_eq_ok.mp h
    simp only [Outcome.pure_eq, Outcome.ok.injEq] at h
    subst h
    refine ⟨mid, hmid, ?_, fun hpos hnz => ?_⟩
    · exact C31_zero_nearby det eps n Emin mid q1 heps hmid.1
        (hdet.mono (Set.Icc_subset_Icc le_rfl hmid.2)) hss h1
    · refine C31_zero_nearby det eps n mid Emax q2 heps hmid.2
        (hdet.mono (Set.Icc_subset_Icc hmid.1 le_rfl)) ?_ h2
      rintro (⟨h3, h4⟩ | ⟨h3, h4⟩)
      · have : det Emin < 0 := by
          rcases lt_or_gt_of_ne hnz with h5 | h5
          · exact h5
          · nlinarith
        exact hss (.inl ⟨this, h3⟩)
      · have : 0 < det Emin := by
          rcases lt_or_gt_of_ne hnz with h5 | h5
          · nlinarith
          · exact h5
        exact hss (.inr ⟨this, h3⟩)

/-- Non-vacuity: `det E = (E-1)(E-3)` on `[0, 5]` splits into two energies near 1 and 3. -/
example : ∃ p : ℚ × ℚ, eigenvaluePair (fun E => (E - 1) * (E - 3)) (fun E => 2 * E - 4) (1/10) 20 0 5 = .ok p ∧
    p.1 ≠ p.2 ∧ |p.1 - 1| < 1/5 ∧ |p.2 - 3| < 1/5 := by
  have h : (match eigenvaluePair (fun E : ℚ => (E - 1) * (E - 3)) (fun E => 2 * E - 4) (1/10) 20 0 5 with
    | .ok p => decide (p.1 ≠ p.2 ∧ |p.1 - 1| < 1/5 ∧ |p.2 - 3| < 1/5)
    | _ => false) = true := by decide +kernel
  split at h
  · rename_i p hp
    exact ⟨p, hp, by simpa using h⟩
  · simp at h

/-! ## C32 -/

section loop
variable {K : Type} [Add K] [Sub K] [Mul K] [Div K] [Neg K] [Zero K] [One K] [CCmp K]

/-- number of eigenvalues an entry stands for -/
def mult (d : Bool) : Int := if d then 2 else 1

/-- What an entry of the result satisfies. -/
def InRange (r : Range K) (i : Int) (E : K) (d : Bool) : Prop :=
  i < r.iMax ∧ CCmp.lt E r.eMin = false ∧ CCmp.le r.eMax E = false ∧ r.iMin ≤ i + (mult d - 1)

/-- Entries in range, their index blocks `[i, i + multiplicity)` disjoint and increasing, all in
`[lo, next)`. -/
def Inv (r : Range K) (lo next : Int) (L : List (Int × K × Bool)) : Prop :=
  (∀ t ∈ L, InRange r t.1 t.2.1 t.2.2 ∧ lo ≤ t.1 ∧ t.1 + mult t.2.2 ≤ next) ∧
  L.Pairwise (fun s t => s.1 + mult s.2.2 ≤ t.1)

omit [Add K] [Sub K] [Mul K] [Div K] [Neg K] [Zero K] [One K] in
theorem Inv.add {r : Range K} {lo next : Int} {L : List (Int × K × Bool)} (h : Inv r lo next L) (i : Int)
    (E : K) (d : Bool) (hi : next ≤ i) (hlo : lo ≤ i) :
    Inv r lo (i + mult d) (add r (fun _ d => d) L i E d) := by
  have hd : 0 < mult d := by cases d <;> decide
  unfold Periodic.add
  split
  · refine ⟨fun t ht => ?_, h.2⟩
    obtain ⟨h1, h2, h3⟩ := h.1 t ht
    exact ⟨h1, h2, by omega⟩
  · rename_i hr
    simp only [Range.rejects, Bool.or_eq_true, not_or, Bool.not_eq_true] at hr
    obtain ⟨⟨⟨h1, h2⟩, h3⟩, h4⟩ := hr
    constructor
    · intro t ht
      rcases List.mem_append.mp ht with ht | ht
      · obtain ⟨h1, h2, h3⟩ := h.1 t ht
        exact ⟨h1, h2, by omega⟩
      · rw [List.mem_singleton] at ht
        subst ht
        refine ⟨⟨by simpa using h2, h3, h4, ?_⟩, hlo, le_rfl⟩
        cases d <;> simp_all [mult]
    · rw [List.pairwise_append]
      refine ⟨h.2, by simp, ?_⟩
      intro s hs t ht
      rw [List.mem_singleton] at ht
      subst ht
      have := (h.1 s hs).2.2
      simp only; omega

theorem mainLoop_inv (o : Oracle K) (r : Range K) (eps highest : K) (n : Nat) (lo : Int) :
    ∀ (fuel : Nat) (i : Int) (low : K) (L L' : List (Int × K × Bool)), Inv r lo (i - 1) L → lo ≤ i - 1 →
      mainLoop o r (fun _ d => d) eps highest n fuel i low L = .ok L' →
      ∃ next, Inv r lo next L' := by
  intro fuel
  induction fuel with
  | zero =>
    intro i low L L' hI hlo h
    unfold mainLoop at h
    split at h
    · simp at h
    · simp only [Outcome.ok.injEq] at h
      subst h; exact ⟨_, hI⟩
  | succ fuel ih =>
    intro i low L L' hI hlo h
    unfold mainLoop at h
    split at h
    · simp only at h
      obtain ⟨low1, _, h⟩ := Outcome.bind_eq_ok.mp h
      obtain ⟨low2, _, h⟩ := Outcome.bind_eq_ok.mp h
      obtain ⟨high, _, h⟩ := Outcome.bind_eq_ok.mp h
      obtain ⟨p, _, h⟩ := Outcome.bind_eq_ok.mp h
      refine ih (i + 2) low2 _ L' ?_ (by omega) h
      split
      · have := hI.add (i - 1) ((p.1 + p.2) / CCmp.lit 2) true le_rfl hlo
        have e : i - 1 + mult true = i + 2 - 1 := by simp [mult]; omega
        rwa [e] at this
      · have h1 := hI.add (i - 1) p.1 false le_rfl hlo
        have h2 := h1.add i p.2 false (by simp [mult]) (by omega)
        have e : i + mult false = i + 2 - 1 := by simp [mult]; omega
        rwa [e] at h2
    · simp only [Outcome.ok.injEq] at h
      subst h; exact ⟨_, hI⟩

theorem helper_inv (o : Oracle K) (r : Range K) (eps : K) (n : Nat) (L : List (Int × K × Bool))
    (h : helper o r (fun _ d => d) eps n = .ok L) :
    ∃ next, Inv r (if startIndex o.anti r.iMin = 0 then 0 else startIndex o.anti r.iMin - 1) next L := by
  unfold helper at h
  obtain ⟨highest, _, h⟩ := Outcome.bind_eq_ok.mp h
  simp only at h
  split at h
  · rename_i h0
    obtain ⟨st, hst, h⟩ := Outcome.bind_eq_ok.mp h
    rw [if_pos h0]
    refine mainLoop_inv o r eps highest n 0 n _ st.1 st.2 L ?_ (by omega) h
    unfold lowest at hst
    obtain ⟨low, _, hst⟩ := Outcome.bind_eq_ok.mp hst
    obtain ⟨high, _, hst⟩ := Outcome.bind_eq_ok.mp hst
    obtain ⟨E, _, hst⟩ := Outcome.bind_eq_ok.mp hst
    simp only [Outcome.pure_eq, Outcome.ok.injEq] at hst
    subst hst
    have h0' : Inv r 0 0 ([] : List (Int × K × Bool)) := ⟨by simp, by simp⟩
    have := h0'.add 0 E false le_rfl le_rfl
    have e : (0 : Int) + mult false = startIndex o.anti r.iMin + 2 - 1 := by simp [mult, h0]
    rwa [e] at this
  · rename_i h0
    rw [if_neg h0]
    exact mainLoop_inv o r eps highest n _ n _ _ [] L ⟨by simp, by simp⟩ le_rfl h

/-! ### The third component does not influence the search -/

omit [Add K] [Sub K] [Mul K] [Div K] [Neg K] [Zero K] [One K] in
theorem add_map {P Q : Type} (r : Range K) (mk : K → Bool → P) (mk' : K → Bool → Q) (g : Int × K × P → Int × K × Q)
    (hg : ∀ i E d, g (i, E, mk E d) = (i, E, mk' E d)) (L : List (Int × K × P)) (i : Int) (E : K) (d : Bool) :
    (add r mk L i E d).map g = add r mk' (L.map g) i E d := by
  unfold add
  split <;> simp [hg]

theorem mainLoop_map {P Q : Type} (o : Oracle K) (r : Range K) (mk : K → Bool → P) (mk' : K → Bool → Q)
    (g : Int × K × P → Int × K × Q) (hg : ∀ i E d, g (i, E, mk E d) = (i, E, mk' E d))
    (eps highest : K) (n : Nat) : ∀ (fuel : Nat) (i : Int) (low : K) (L : List (Int × K × P)),
      mainLoop o r mk' eps highest n fuel i low (L.map g) =
        (mainLoop o r mk eps highest n fuel i low L).map (List.map g) := by
  intro fuel
  induction fuel with
  | zero =>
    intro i low L
    unfold mainLoop
    split <;> rfl
  | succ fuel ih =>
    intro i low L
    unfold mainLoop
    split
    · simp only
      cases expandDown (o.findLow i) n (CCmp.lit 1) low with
      | throws _ => rfl
      | ub _ => rfl
      | timeout => rfl
      | ok low1 =>
        simp only [Outcome.bind_ok]
        cases bisect' (o.findLow i) eps n low1 highest with
        | throws _ => rfl
        | ub _ => rfl
        | timeout => rfl
        | ok low2 =>
          simp only [Outcome.bind_ok]
          cases bisect' (o.findHigh i) eps n low2 highest with
          | throws _ => rfl
          | ub _ => rfl
          | timeout => rfl
          | ok high =>
            simp only [Outcome.bind_ok]
            cases eigenvaluePair o.det o.ddet eps n low2 high with
            | throws _ => rfl
            | ub _ => rfl
            | timeout => rfl
            | ok p =>
              simp only [Outcome.bind_ok]
              rw [← ih]
              congr 1
              split
              · rw [add_map r mk mk' g hg]
              · rw [add_map r mk mk' g hg, add_map r mk mk' g hg]
    · rfl

theorem helper_map {P Q : Type} (o : Oracle K) (r : Range K) (mk : K → Bool → P) (mk' : K → Bool → Q)
    (g : Int × K × P → Int × K × Q) (hg : ∀ i E d, g (i, E, mk E d) = (i, E, mk' E d))
    (eps : K) (n : Nat) : helper o r mk' eps n = (helper o r mk eps n).map (List.map g) := by
  unfold helper
  cases expandUp (o.findHigh (r.iMax + 1)) n (CCmp.lit 1) r.eMax with
  | throws _ => rfl
  | ub _ => rfl
  | timeout => rfl
  | ok highest =>
    simp only [Outcome.bind_ok]
    split
    · unfold lowest
      cases expandDown (o.findHigh 0) n (CCmp.lit 1) r.eMin with
      | throws _ => rfl
      | ub _ => rfl
      | timeout => rfl
      | ok low =>
        simp only [Outcome.bind_ok]
        cases bisect' (o.findHigh 0) eps n low highest with
        | throws _ => rfl
        | ub _ => rfl
        | timeout => rfl
        | ok high =>
          simp only [Outcome.bind_ok]
          cases bisect' o.det eps n low high with
          | throws _ => rfl
          | ub _ => rfl
          | timeout => rfl
          | ok E =>
            simp only [Outcome.bind_ok, Outcome.pure_eq]
            rw [← mainLoop_map o r mk mk' g hg, add_map r mk mk' g hg]
            rfl
    · rw [← mainLoop_map o r mk mk' g hg]; rfl

/-- The property of a list of (index, energy, multiplicity): see C32. -/
structure GoodResult (iMin iMax : Int) (eMin eMax : K) (L : List (Int × K × Int)) : Prop where
  /-- multiplicities are 1 or 2 -/
  multiplicity : ∀ t ∈ L, t.2.2 = 1 ∨ t.2.2 = 2
  /-- energies are not below `eMin` and below `eMax` -/
  energy : ∀ t ∈ L, CCmp.lt t.2.1 eMin = false ∧ CCmp.le eMax t.2.1 = false
  /-- indices are below `iMax` -/
  below : ∀ t ∈ L, t.1 < iMax
  /-- the last index of the entry is at least `iMin` -/
  above : ∀ t ∈ L, iMin ≤ t.1 + t.2.2 - 1
  /-- the index blocks `[i, i + multiplicity)` are disjoint and increasing -/
  blocks : L.Pairwise (fun s t => s.1 + s.2.2 ≤ t.1)

theorem helper_good (o : Oracle K) (r : Range K) (eps : K) (n : Nat) (L : List (Int × K × Int))
    (h : helper o r multiplicity eps n = .ok L) :
    GoodResult r.iMin r.iMax r.eMin r.eMax L ∧ (-1 ≤ r.iMin → ∀ t ∈ L, 0 ≤ t.1) := by
  rw [helper_map o r (fun _ d => d) multiplicity (fun t => (t.1, t.2.1, multiplicity t.2.1 t.2.2))
    (fun _ _ _ => rfl)] at h
  cases hb : helper o r (fun _ d => d) eps n with
  | throws m => simp [hb, Outcome.map] at h
  | ub m => simp [hb, Outcome.map] at h
  | timeout => simp [hb, Outcome.map] at h
  | ok B =>
    rw [hb] at h
    simp only [Outcome.map, Outcome.ok.injEq] at h
    subst h
    obtain ⟨next, h1, h2⟩ := helper_inv o r eps n B hb
    refine ⟨⟨?_, ?_, ?_, ?_, ?_⟩, ?_⟩
    · intro t ht
      obtain ⟨s, hs, rfl⟩ := List.mem_map.mp ht
      simp only [multiplicity]
      cases s.2.2 <;> simp
    · intro t ht
      obtain ⟨s, hs, rfl⟩ := List.mem_map.mp ht
      exact ⟨(h1 s hs).1.2.1, (h1 s hs).1.2.2.1⟩
    · intro t ht
      obtain ⟨s, hs, rfl⟩ := List.mem_map.mp ht
      exact (h1 s hs).1.1
    · intro t ht
      obtain ⟨s, hs, rfl⟩ := List.mem_map.mp ht
      have := (h1 s hs).1.2.2.2
      simp only [multiplicity]
      simp only [mult] at this
      omega
    · rw [List.pairwise_map]
      exact h2
    · intro hmin t ht
      obtain ⟨s, hs, rfl⟩ := List.mem_map.mp ht
      have := (h1 s hs).2.1
      simp only
      refine le_trans ?_ this
      split
      · exact le_rfl
      · rename_i h0
        have hs : 0 ≤ startIndex o.anti r.iMin := by
          unfold startIndex
          have h5 : r.iMin - r.iMin.tmod 2 ≥ 0 := by
            rcases (show r.iMin = -1 ∨ 0 ≤ r.iMin by omega) with h | h
            · rw [h]; decide
            · have := Int.tmod_eq_emod_of_nonneg (b := 2) h
              omega
          split <;> omega
        omega

/-- **C32** (any arithmetic), by index: every entry of the result has its energy in the searched
window, an index below `iMax`, its last index at least `iMin`, multiplicity 1 or 2, and the index
blocks are disjoint and increasing; for `iMin ≥ -1` indices are non-negative. -/
theorem C32_by_index (o : Oracle K) (iMin iMax : Int) (n : Nat) (L : List (Int × K × Int))
    (h : byIndex o multiplicity iMin iMax n = .ok L) :
    ∃ eMin eMax, GoodResult iMin iMax eMin eMax L ∧ (-1 ≤ iMin → ∀ t ∈ L, 0 ≤ t.1) := by
  unfold byIndex at h
  obtain ⟨eMin, _, h⟩ := Outcome.bind_eq_ok.mp h
  obtain ⟨eMax, _, h⟩ := Outcome.bind_eq_ok.mp h
  exact ⟨eMin, eMax, helper_good o _ _ n L h⟩

/-- **C32** (any arithmetic), by energy: the same, with the energies in the requested window. -/
theorem C32_by_energy (trunc : K → Option Int) (o : Oracle K) (eMin eMax : K) (n : Nat)
    (L : List (Int × K × Int)) (h : byEnergy trunc o multiplicity eMin eMax n = .ok L) :
    ∃ iMin iMax, GoodResult iMin iMax eMin eMax L ∧ (-1 ≤ iMin → ∀ t ∈ L, 0 ≤ t.1) := by
  unfold byEnergy at h
  split at h
  · exact ⟨_, _, helper_good o _ _ n L h⟩
  · simp at h

end loop

/-- **C32** in exact arithmetic: energies in `[eMin, eMax)`; consecutive indices increase, and after a
double eigenvalue with index `i` the next index is at least `i + 2`. -/
theorem C32_by_energy_exact {K : Type} [Field K] [LinearOrder K] [IsStrictOrderedRing K]
    (trunc : K → Option Int) (o : Oracle K) (eMin eMax : K) (n : Nat)
    (L : List (Int × K × Int)) (h : byEnergy trunc o multiplicity eMin eMax n = .ok L) :
    (∀ t ∈ L, eMin ≤ t.2.1 ∧ t.2.1 < eMax) ∧
    L.Pairwise (fun s t => s.1 < t.1 ∧ (s.2.2 = 2 → s.1 + 2 ≤ t.1)) := by
  obtain ⟨iMin, iMax, g, -⟩ := C32_by_energy trunc o eMin eMax n L h
  refine ⟨fun t ht => by simpa using g.energy t ht, ?_⟩
  refine g.blocks.imp_of_mem ?_
  intro s t hs _ hst
  rcases g.multiplicity s hs with h1 | h1
  · exact ⟨by omega, fun h2 => by omega⟩
  · exact ⟨by omega, fun h2 => by omega⟩

/-- Non-vacuity of C32: a problem with the angles `(E, E + 1/2)` and determinant `(E-1)(E-2)`. -/
def exOracle : Oracle ℚ := ⟨fun E => (E, E + 1/2), fun E => (E - 1) * (E - 2), fun E => 2 * E - 3, false⟩

/-! ## C73: termination of the periodic search -/

section term
variable {K : Type} [Field K] [LinearOrder K] [IsStrictOrderedRing K]

/-- From some fuel on, the outcome is one fixed value. -/
def Ends {α : Type} (f : Nat → Outcome α) : Prop := ∃ n a, ∀ m, n ≤ m → f m = .ok a

theorem Ends.bind {α β : Type} {f : Nat → Outcome α} {g : α → Nat → Outcome β} (hf : Ends f)
    (hg : ∀ a, Ends (g a)) : Ends (fun m => f m >>= fun a => g a m) := by
  obtain ⟨n, a, h⟩ := hf
  obtain ⟨n', b, h'⟩ := hg a
  refine ⟨max n n', b, fun m hm => ?_⟩
  simp only [h m (le_trans (le_max_left _ _) hm), Outcome.bind_ok]
  exact h' m (le_trans (le_max_right _ _) hm)

theorem Ends.pure {α : Type} (a : α) : Ends (fun _ => (.ok a : Outcome α)) := ⟨0, a, fun _ _ => rfl⟩

theorem expandUp_ends (g : K → K) : ∀ (n : Nat) (step x : K), 0 < step →
    (∀ E, x + n * step ≤ E → 0 ≤ g E) → ∃ a, ∀ m, n ≤ m → expandUp g m step x = .ok a := by
  intro n
  induction n with
  | zero =>
    intro step x hs h
    refine ⟨x, fun m _ => ?_⟩
    unfold expandUp
    have : ¬ g x < 0 := not_lt.mpr (h x (by simp))
    simp only [ccmp_lt, this, decide_false, Bool.false_eq_true, if_false]
  | succ n ih =>
    intro step x hs h
    by_cases hx : g x < 0
    · obtain ⟨a, ha⟩ := ih (step * 2) (x + step) (by linarith) (fun E hE => h E (by
        push_cast
        have h0 : (0:K) ≤ n := Nat.cast_nonneg n
        nlinarith))
      refine ⟨a, fun m hm => ?_⟩
      obtain ⟨m, rfl⟩ : ∃ k, m = k + 1 := ⟨m - 1, by omega⟩
      unfold expandUp
      simp only [ccmp_lt, hx, decide_true, if_true, ccmp_lit]
      simpa using ha m (by omega)
    · refine ⟨x, fun m _ => ?_⟩
      unfold expandUp
      simp only [ccmp_lt, hx, decide_false, Bool.false_eq_true, if_false]

theorem expandDown_ends (g : K → K) : ∀ (n : Nat) (step x : K), 0 < step →
    (∀ E, E ≤ x - n * step → g E ≤ 0) → ∃ a, ∀ m, n ≤ m → expandDown g m step x = .ok a := by
  intro n
  induction n with
  | zero =>
    intro step x hs h
    refine ⟨x, fun m _ => ?_⟩
    unfold expandDown
    have : ¬ 0 < g x := not_lt.mpr (h x (by simp))
    simp only [ccmp_lt, this, decide_false, Bool.false_eq_true, if_false]
  | succ n ih =>
    intro step x hs h
    by_cases hx : 0 < g x
    · obtain ⟨a, ha⟩ := ih (step * 2) (x - step) (by linarith) (fun E hE => h E (by
        push_cast
        have h0 : (0:K) ≤ n := Nat.cast_nonneg n
        nlinarith))
      refine ⟨a, fun m hm => ?_⟩
      obtain ⟨m, rfl⟩ : ∃ k, m = k + 1 := ⟨m - 1, by omega⟩
      unfold expandDown
      simp only [ccmp_lt, hx, decide_true, if_true, ccmp_lit]
      simpa using ha m (by omega)
    · refine ⟨x, fun m _ => ?_⟩
      unfold expandDown
      simp only [ccmp_lt, hx, decide_false, Bool.false_eq_true, if_false]

variable [Archimedean K]

theorem expandUp_ends' (g : K → K) (x E₀ : K) (h : ∀ E, E₀ ≤ E → 0 ≤ g E) :
    Ends (fun m => expandUp g m (CCmp.lit 1) x) := by
  obtain ⟨n, hn⟩ := exists_nat_gt (E₀ - x)
  obtain ⟨a, ha⟩ := expandUp_ends g n (CCmp.lit 1) x (by simp) (fun E hE => h E (by
    simp at hE; linarith))
  exact ⟨n, a, ha⟩

theorem expandDown_ends' (g : K → K) (x E₀ : K) (h : ∀ E, E ≤ E₀ → g E ≤ 0) :
    Ends (fun m => expandDown g m (CCmp.lit 1) x) := by
  obtain ⟨n, hn⟩ := exists_nat_gt (x - E₀)
  obtain ⟨a, ha⟩ := expandDown_ends g n (CCmp.lit 1) x (by simp) (fun E hE => h E (by
    simp at hE; linarith))
  exact ⟨n, a, ha⟩

theorem bisect_ends (f : K → K) (eps a b c : K) (heps : 0 < eps) :
    Ends (fun m => bisect f eps m a b c) := C31_bisection_terminates f eps a b c heps

theorem pair_ends (det ddet : K → K) (eps a b : K) (heps : 0 < eps) :
    Ends (fun m => eigenvaluePair det ddet eps m a b) := by
  unfold eigenvaluePair
  refine Ends.bind (bisect_ends _ _ _ _ _ heps) (fun mid => ?_)
  simp only
  split
  · exact Ends.pure _
  · exact Ends.bind (bisect_ends _ _ _ _ _ heps) (fun p => Ends.bind (bisect_ends _ _ _ _ _ heps)
      (fun q => Ends.pure _))

theorem mainLoop_ends {P : Type} (o : Oracle K) (r : Range K) (mk : K → Bool → P) (eps highest : K)
    (heps : 0 < eps) (E₁ : K) (hlow : ∀ E, E ≤ E₁ → o.minTheta E ≤ 0) :
    ∀ (k : Nat) (i : Int) (low : K) (L : List (Int × K × P)), 1 ≤ i → r.iMax + 1 - i < 2 * k →
      ∃ n a, ∀ m, n ≤ m → ∀ fuel, k ≤ fuel → mainLoop o r mk eps highest m fuel i low L = .ok a := by
  intro k
  induction k with
  | zero =>
    intro i low L hi hk
    refine ⟨0, L, fun m _ fuel _ => ?_⟩
    unfold mainLoop
    rw [if_neg (by omega)]
  | succ k ih =>
    intro i low L hi hk
    by_cases hc : i ≤ r.iMax + 1
    · have hl : Ends (fun m => expandDown (o.findLow i) m (CCmp.lit 1) low) := by
        refine expandDown_ends' _ low E₁ (fun E hE => ?_)
        have := hlow E hE
        have h1 : (1 : K) ≤ ((i : Rat) : K) := by exact_mod_cast hi
        simp only [Oracle.findLow, ccmp_lit]
        push_cast at h1 ⊢
        linarith
      obtain ⟨n1, low1, h1⟩ := hl
      obtain ⟨n2, low2, h2⟩ := bisect_ends (o.findLow i) eps low1 highest (o.findLow i low1) heps
      obtain ⟨n3, high, h3⟩ := bisect_ends (o.findHigh i) eps low2 highest (o.findHigh i low2) heps
      obtain ⟨n4, p, h4⟩ := pair_ends o.det o.ddet eps low2 high heps
      obtain ⟨n5, a, h5⟩ := ih (i + 2) low2
        (if CCmp.lt (p.2 - p.1) eps then add r mk L (i - 1) ((p.1 + p.2) / CCmp.lit 2) true
          else add r mk (add r mk L (i - 1) p.1 false) i p.2 false) (by omega) (by omega)
      refine ⟨max n1 (max n2 (max n3 (max n4 n5))), a, fun m hm fuel hfuel => ?_⟩
      simp only [max_le_iff] at hm
      obtain ⟨fuel, rfl⟩ : ∃ f, fuel = f + 1 := ⟨fuel - 1, by omega⟩
      unfold mainLoop
      rw [if_pos hc]
      simp only [h1 m hm.1, Outcome.bind_ok, bisect', h2 m hm.2.1, h3 m hm.2.2.1, h4 m hm.2.2.2.1]
      exact h5 m hm.2.2.2.2 fuel (by omega)
    · refine ⟨0, L, fun m _ fuel _ => ?_⟩
      unfold mainLoop
      rw [if_neg hc]

theorem startIndex_cases (anti : Bool) (iMin : Int) (h : -1 ≤ iMin) :
    startIndex anti iMin = 0 ∨ 1 ≤ startIndex anti iMin := by
  unfold startIndex
  have h5 : iMin - iMin.tmod 2 ≥ 0 := by
    rcases (show iMin = -1 ∨ 0 ≤ iMin by omega) with h | h
    · rw [h]; decide
    · have := Int.tmod_eq_emod_of_nonneg (b := 2) h
      omega
  split <;> omega

/-- The angles of a problem behave as those of a periodic Sturm–Liouville problem: the larger one is
unbounded above, and far below the spectrum the smaller one is at most 0 and the larger one at most 1. -/
structure AngleLimits (o : Oracle K) : Prop where
  up : ∀ N : K, ∃ E₀, ∀ E, E₀ ≤ E → N ≤ o.maxTheta E
  down : ∃ E₁, ∀ E, E ≤ E₁ → o.minTheta E ≤ 0 ∧ o.maxTheta E ≤ 1

theorem helper_ends {P : Type} (o : Oracle K) (A : AngleLimits o) (r : Range K) (mk : K → Bool → P)
    (eps : K) (heps : 0 < eps) (h1 : -1 ≤ r.iMin) : Ends (fun m => helper o r mk eps m) := by
  obtain ⟨E₁, hE₁⟩ := A.down
  unfold helper
  refine Ends.bind ?_ (fun highest => ?_)
  · obtain ⟨E₀, hE₀⟩ := A.up ((r.iMax + 1 : Int) + 1)
    refine expandUp_ends' _ _ E₀ (fun E hE => ?_)
    have := hE₀ E hE
    simp only [Oracle.findHigh, ccmp_lit]
    push_cast at this ⊢
    linarith
  · simp only
    have main : ∀ (i : Int) (low : K) (L : List (Int × K × P)), 1 ≤ i →
        Ends (fun m => mainLoop o r mk eps highest m m i low L) := by
      intro i low L hi
      obtain ⟨k, hk⟩ : ∃ k : Nat, r.iMax + 1 - i < 2 * k := ⟨(r.iMax + 2 - i).toNat, by omega⟩
      obtain ⟨n, a, h⟩ := mainLoop_ends o r mk eps highest heps E₁ (fun E hE => (hE₁ E hE).1) k i low L hi hk
      exact ⟨max n k, a, fun m hm => h m (le_trans (le_max_left _ _) hm) m (le_trans (le_max_right _ _) hm)⟩
    rcases startIndex_cases o.anti r.iMin h1 with h0 | h0
    · simp only [h0, if_true]
      refine Ends.bind ?_ (fun st => main _ _ _ (by omega))
      unfold lowest
      refine Ends.bind (expandDown_ends' _ _ E₁ (fun E hE => ?_)) (fun low =>
        Ends.bind (bisect_ends _ _ _ _ _ heps) (fun high => Ends.bind (bisect_ends _ _ _ _ _ heps)
          (fun E => Ends.pure _)))
      have := (hE₁ E hE).2
      simp only [Oracle.findHigh, ccmp_lit]
      push_cast
      linarith
    · simp only [show startIndex o.anti r.iMin ≠ 0 by omega, if_false]
      exact main _ _ _ h0

theorem doubleWhile_ends (stop : K → Bool) : ∀ (n : Nat) (x : K),
    (∀ m, n ≤ m → stop (x * 2 ^ m) = true) → ∃ a, ∀ m, n ≤ m → doubleWhile stop m x = .ok a := by
  intro n
  induction n with
  | zero =>
    intro x h
    refine ⟨x, fun m _ => ?_⟩
    unfold doubleWhile
    have := h 0 le_rfl
    simp at this
    simp [this]
  | succ n ih =>
    intro x h
    by_cases hx : stop x = true
    · refine ⟨x, fun m _ => ?_⟩
      unfold doubleWhile
      simp [hx]
    · obtain ⟨a, ha⟩ := ih (x * 2) (fun m hm => by
        have := h (m + 1) (by omega)
        rwa [pow_succ', ← mul_assoc] at this)
      refine ⟨a, fun m hm => ?_⟩
      obtain ⟨m, rfl⟩ : ∃ k, m = k + 1 := ⟨m - 1, by omega⟩
      unfold doubleWhile
      simp only [hx, Bool.false_eq_true, if_false, ccmp_lit]
      simpa using ha m (by omega)

/-- **C73**: the periodic search by index terminates for every `iMin ≥ -1` and every `iMax`, for every
determinant function, with a result independent of how long the loops were allowed to run. -/
theorem C73_by_index_terminates {P : Type} (o : Oracle K) (A : AngleLimits o) (mk : K → Bool → P)
    (iMin iMax : Int) (h1 : -1 ≤ iMin) :
    ∃ n L, ∀ m, n ≤ m → byIndex o mk iMin iMax m = .ok L := by
  obtain ⟨E₁, hE₁⟩ := A.down
  obtain ⟨E₀, hE₀⟩ := A.up (iMax + 2 : Int)
  have big : ∀ B : K, ∃ n : Nat, ∀ m, n ≤ m → B ≤ 2 ^ m := by
    intro B
    obtain ⟨n, hn⟩ := pow_unbounded_of_one_lt B (one_lt_two (α := K))
    exact ⟨n, fun m hm => hn.le.trans (pow_le_pow_right₀ one_le_two hm)⟩
  unfold byIndex
  change Ends _
  refine Ends.bind ?_ (fun eMin => Ends.bind ?_ (fun eMax => helper_ends o A _ mk _ (by simp) h1))
  · obtain ⟨n, hn⟩ := big (-E₁)
    obtain ⟨a, ha⟩ := doubleWhile_ends (fun E => !CCmp.lt (CCmp.lit (max (iMin - 2) 0 : Int)) (o.minTheta E)) n
      (CCmp.lit (-1)) (fun m hm => by
        have h2 := (hE₁ (CCmp.lit (-1) * 2 ^ m) (by
          have := hn m hm
          simp only [ccmp_lit]; push_cast; linarith)).1
        have h3 : (0 : K) ≤ (((max (iMin - 2) 0 : Int) : Rat) : K) := by
          have : (0 : Int) ≤ max (iMin - 2) 0 := le_max_right _ _
          exact_mod_cast this
        simp only [ccmp_lt, Bool.not_eq_true', decide_eq_false_iff_not, not_lt, ccmp_lit]
        exact h2.trans h3)
    exact ⟨n, a, ha⟩
  · obtain ⟨n, hn⟩ := big E₀
    obtain ⟨a, ha⟩ := doubleWhile_ends (fun E => !CCmp.lt (o.maxTheta E) (CCmp.lit (iMax + 2 : Int))) n
      (CCmp.lit 1) (fun m hm => by
        have h2 := hE₀ (CCmp.lit 1 * 2 ^ m) (by
          have := hn m hm
          simp only [ccmp_lit]; push_cast; linarith)
        simp only [ccmp_lt, Bool.not_eq_true', decide_eq_false_iff_not, not_lt, ccmp_lit]
        rw [ccmp_lit] at h2
        push_cast at h2 ⊢
        exact h2)
    exact ⟨n, a, ha⟩

/-- **C73**, by energy: it terminates whenever the truncated angle at `eMin` is not negative (angles of
periodic problems are above -1) . -/
theorem C73_by_energy_terminates {P : Type} (trunc : K → Option Int) (o : Oracle K) (A : AngleLimits o)
    (mk : K → Bool → P) (eMin eMax : K) (a b : Int) (ha : trunc (o.minTheta eMin) = some a)
    (hb : trunc (o.maxTheta eMax) = some b) (h0 : 0 ≤ a) :
    ∃ n L, ∀ m, n ≤ m → byEnergy trunc o mk eMin eMax m = .ok L := by
  unfold byEnergy
  simp only [ha, hb]
  exact helper_ends o A _ mk _ (by simp) (by simp only; omega)

omit [Archimedean K] in
/-- **C73**: the hypothesis `iMin ≥ -1` is needed. If the angles stay above -1 (as they do), asking for
indices from `-2` or less on never returns: no number of iterations suffices. -/
theorem C73_negative_index_hangs {P : Type} (o : Oracle K) (hθ : ∀ E, -1 < o.minTheta E) (mk : K → Bool → P)
    (iMin iMax : Int) (h1 : iMin ≤ -2) (h2 : iMin < iMax) (m : Nat) :
    ∀ L, byIndex o mk iMin iMax m ≠ .ok L := by
  have hdown : ∀ (i : Int), i ≤ -1 → ∀ (n : Nat) (step x : K), expandDown (o.findLow i) n step x = .timeout := by
    intro i hi n
    have hp : ∀ x, 0 < o.findLow i x := by
      intro x
      have := hθ x
      have h3 : ((i : Rat) : K) ≤ -1 := by exact_mod_cast hi
      simp only [Oracle.findLow, ccmp_lit]
      push_cast at h3 ⊢
      linarith
    induction n with
    | zero => intro step x; unfold expandDown; simp [hp x]
    | succ n ih => intro step x; unfold expandDown; simp only [ccmp_lt, hp x, decide_true, if_true]; exact ih _ _
  have htm : iMin.tmod 2 = -((-iMin) % 2) := by
    rw [← Int.tmod_eq_emod_of_nonneg (by omega), Int.neg_tmod, neg_neg]
  have hs : startIndex o.anti iMin ≤ -1 ∧ startIndex o.anti iMin ≤ iMax + 1 := by
    unfold startIndex
    split <;> omega
  intro L h
  unfold byIndex at h
  obtain ⟨eMin, _, h⟩ := Outcome.bind_eq_ok.mp h
  obtain ⟨eMax, _, h⟩ := Outcome.bind_eq_ok.mp h
  unfold helper at h
  obtain ⟨highest, _, h⟩ := Outcome.bind_eq_ok.mp h
  simp only [show startIndex o.anti iMin ≠ 0 by omega, if_false] at h
  unfold mainLoop at h
  simp only [hs.2, if_true] at h
  cases m with
  | zero => simp at h
  | succ m => simp only [hdown _ hs.1, Outcome.bind_timeout] at h; simp at h

end term

/-- A run of the search (with a coarse `eps`): a simple and a double eigenvalue. -/
example : helper exOracle ⟨-4, 8, 0, 3⟩ multiplicity (1/8) 40 =
    .ok [(0, 3427/8192, 1), (1, 197041/131072, 2)] := by decide +kernel

/-- Non-vacuity of C73: the angles `(E, E + 1/2)` have the required limits. -/
example : AngleLimits exOracle where
  up N := ⟨N, fun E hE => by simp only [Oracle.maxTheta, exOracle, stdMax_eq]; exact hE.trans (le_max_left _ _)⟩
  down := ⟨0, fun E hE => by
    simp only [Oracle.maxTheta, Oracle.minTheta, exOracle, stdMax_eq, stdMin_eq]
    exact ⟨(min_le_left _ _).trans hE, max_le (by linarith) (by linarith)⟩⟩

/-! ## C72: eigenpairs -/

/-- **C72** (any arithmetic): `eigenpairs`/`eigenpairsByIndex` return exactly the indices and energies
of `eigenvalues`/`eigenvaluesByIndex`, in the same order, with as many eigenfunctions as the
multiplicity says. -/
theorem C72_eigenpairs_match {K : Type} [Add K] [Sub K] [Mul K] [Div K] [Neg K] [Zero K] [One K] [CCmp K]
    (k : M2 K) (kernel : K → K × K) (o : Oracle K) (n : Nat) :
    (∀ iMin iMax, byIndex o multiplicity iMin iMax n =
      (byIndex o (pairBoundaries k kernel) iMin iMax n).map
        (List.map fun t => (t.1, t.2.1, (t.2.2.length : Int)))) ∧
    (∀ trunc eMin eMax, byEnergy trunc o multiplicity eMin eMax n =
      (byEnergy trunc o (pairBoundaries k kernel) eMin eMax n).map
        (List.map fun t => (t.1, t.2.1, (t.2.2.length : Int)))) := by
  have key : ∀ (r : Range K) eps, helper o r multiplicity eps n =
      (helper o r (pairBoundaries k kernel) eps n).map
        (List.map fun t => (t.1, t.2.1, (t.2.2.length : Int))) := by
    intro r eps
    refine helper_map o r (pairBoundaries k kernel) multiplicity _ ?_ eps n
    intro i E d
    cases d <;> rfl
  constructor
  · intro iMin iMax
    unfold byIndex
    cases doubleWhile (fun E => !CCmp.lt (CCmp.lit (max (iMin - 2) 0 : Int)) (o.minTheta E)) n (CCmp.lit (-1) : K) with
    | throws _ => rfl
    | ub _ => rfl
    | timeout => rfl
    | ok eMin =>
      simp only [Outcome.bind_ok]
      cases doubleWhile (fun E => !CCmp.lt (o.maxTheta E) (CCmp.lit (iMax + 2 : Int))) n (CCmp.lit 1 : K) with
      | throws _ => rfl
      | ub _ => rfl
      | timeout => rfl
      | ok eMax => simp only [Outcome.bind_ok]; exact key _ _
  · intro trunc eMin eMax
    unfold byEnergy
    split
    · exact key _ _
    · rfl

/-! ## C33 -/
section det
variable {K : Type} [Field K] [LinearOrder K] [IsStrictOrderedRing K]

/-- The propagated values of a combination of the two basis columns. -/
theorem propagate_combine {P : Prob K} {E : K} {useH : Bool} (g : P.Good E useH) (pi : K)
    (k : M2 K) (c : K × K) {a b : K} (ha : P.dmin ≤ a ∧ a ≤ P.dmax) (hb : P.dmin ≤ b ∧ b ≤ P.dmax) :
    ∃ r0 r1 r, P.propagate pi E (initialValue k).1 a b useH = .ok r0 ∧
      P.propagate pi E (initialValue k).2 a b useH = .ok r1 ∧
      P.propagate pi E (combine (initialValue k) c) a b useH = .ok r ∧
      r.1 = combine (r0.1, r1.1) c := by
  obtain ⟨r0, r1, r, h0, h1, h, he⟩ := C11_propagate_linear P g.mesh g.h_nonneg pi E useH
    (initialValue k).1 (initialValue k).2 c.1 c.2 ha hb
  exact ⟨r0, r1, r, h0, h1, h, he⟩

theorem kernel_iff (a b c d : K) :
    a * d - b * c = 0 ↔ ∃ u v : K, ¬ (u = 0 ∧ v = 0) ∧ a * u + b * v = 0 ∧ c * u + d * v = 0 := by
  constructor
  · intro h
    by_cases h1 : a = 0 ∧ b = 0
    · obtain ⟨rfl, rfl⟩ := h1
      by_cases h2 : c = 0 ∧ d = 0
      · obtain ⟨rfl, rfl⟩ := h2
        exact ⟨1, 0, by simp, by ring, by ring⟩
      · exact ⟨d, -c, fun h => h2 ⟨neg_eq_zero.mp h.2, h.1⟩, by ring, by ring⟩
    · exact ⟨b, -a, fun h => h1 ⟨neg_eq_zero.mp h.2, h.1⟩, by ring, by linear_combination -h⟩
  · rintro ⟨u, v, hne, h1, h2⟩
    by_cases hu : u = 0
    · have hv : v ≠ 0 := fun h => hne ⟨hu, h⟩
      subst hu
      have hb : b = 0 := by
        have : b * v = 0 := by linear_combination h1
        exact (mul_eq_zero.mp this).resolve_right hv
      have hd : d = 0 := by
        have : d * v = 0 := by linear_combination h2
        exact (mul_eq_zero.mp this).resolve_right hv
      rw [hb, hd]; ring
    · have : u * (a * d - b * c) = 0 := by linear_combination d * h1 - b * h2
      exact (mul_eq_zero.mp this).resolve_left hu

/-- Equality of value and derivative at one point of the domain gives it at every other. -/
theorem propagate_same {P : Prob K} {E : K} {useH : Bool} (g : P.Good E useH) (pi : K)
    (u v : Y K) (h : u.y = v.y ∧ u.dy = v.dy) {a b : K} (ha : P.dmin ≤ a ∧ a ≤ P.dmax)
    (hb : P.dmin ≤ b ∧ b ≤ P.dmax) {ru rv : Y K × K} (hu : P.propagate pi E u a b useH = .ok ru)
    (hv : P.propagate pi E v a b useH = .ok rv) : ru.1.y = rv.1.y ∧ ru.1.dy = rv.1.dy := by
  obtain ⟨ru', rv', hu', hv', h1, h2⟩ := propagate_proportional g pi 1 u v ⟨by rw [h.1, one_mul], by rw [h.2, one_mul]⟩ ha hb
  rw [hu] at hu'; rw [hv] at hv'
  injection hu' with hu'; injection hv' with hv'
  subst hu'; subst hv'
  exact ⟨by rw [h1, one_mul], by rw [h2, one_mul]⟩

/-- The kernel of the error matrix, in terms of `propagate`: the combination `c` of the basis columns
satisfies the boundary condition exactly when the error matrix annihilates `c`. -/
theorem error_kernel_iff {P : Prob K} {E : K} {useH : Bool} (g : P.Good E useH) (pi : K)
    (hmi : P.matchIndex < P.secs.length) (k : M2 K) :
    ∃ e, matchingError P k pi E useH = .ok e ∧ ∀ c : K × K,
      ((e.1.1.y * c.1 + e.1.2.y * c.2 = 0 ∧ e.1.1.dy * c.1 + e.1.2.dy * c.2 = 0) ↔
        ∃ r, P.propagate pi E (combine (initialValue idM) c) P.dmin P.dmax useH = .ok r ∧
          r.1.y = (combine (initialValue k) c).y ∧ r.1.dy = (combine (initialValue k) c).dy) := by
  have hm := matchIndex_point g hmi
  have hd : P.dmin ≤ P.dmax := hm.1.trans hm.2
  have hmin : P.dmin ≤ P.dmin ∧ P.dmin ≤ P.dmax := ⟨le_rfl, hd⟩
  have hmax : P.dmin ≤ P.dmax ∧ P.dmax ≤ P.dmax := ⟨hd, le_rfl⟩
  obtain ⟨l0, l1, _, hl0, hl1, -, -⟩ := propagate_combine g pi idM (0, 0) hmin hm
  obtain ⟨r0, r1, _, hr0, hr1, -, -⟩ := propagate_combine g pi k (0, 0) hmax hm
  refine ⟨((ySub l0.1 r0.1, ySub l1.1 r1.1), ((l0.2 - r0.2) / pi, (l1.2 - r1.2) / pi)), ?_, ?_⟩
  · unfold matchingError
    simp only [List.getElem?_eq_getElem hmi, hl0, hl1, hr0, hr1, Outcome.bind_ok, Outcome.pure_eq]
  · intro c
    obtain ⟨l0', l1', A, hl0', hl1', hA, hAe⟩ := propagate_combine g pi idM c hmin hm
    obtain ⟨r0', r1', B, hr0', hr1', hB, hBe⟩ := propagate_combine g pi k c hmax hm
    rw [hl0] at hl0'; rw [hl1] at hl1'; rw [hr0] at hr0'; rw [hr1] at hr1'
    injection hl0' with hl0'; injection hl1' with hl1'; injection hr0' with hr0'; injection hr1' with hr1'
    subst hl0'; subst hl1'; subst hr0'; subst hr1'
    obtain ⟨A', C, C', hA', hC, hC', hCC⟩ := C12_propagate_composes g pi (combine (initialValue idM) c) hmin hm hmax
    rw [hA] at hA'; injection hA' with hA'; subst hA'
    obtain ⟨B', θ, hB', hBB⟩ := C13_propagate_reversible g pi (combine (initialValue k) c) hmax hm
    rw [hB] at hB'; injection hB' with hB'; subst hB'
    have e1 : (ySub l0.1 r0.1).y * c.1 + (ySub l1.1 r1.1).y * c.2 = A.1.y - B.1.y := by
      rw [hAe, hBe]; simp only [ySub, combine]; ring
    have e2 : (ySub l0.1 r0.1).dy * c.1 + (ySub l1.1 r1.1).dy * c.2 = A.1.dy - B.1.dy := by
      rw [hAe, hBe]; simp only [ySub, combine]; ring
    simp only [e1, e2, sub_eq_zero]
    constructor
    · intro h
      refine ⟨C', hC', ?_⟩
      have := propagate_same g pi A.1 B.1 h hm hmax hC hBB
      rw [← hCC]; exact this
    · rintro ⟨r, hr, h⟩
      rw [hC'] at hr; injection hr with hr; subst hr
      obtain ⟨D, D', F, hD, hD', hF, hDF⟩ :=
        C12_propagate_composes g pi (combine (initialValue idM) c) hmin hmax hm
      rw [hC'] at hD; injection hD with hD; subst hD
      rw [hA] at hF; injection hF with hF; subst hF
      have := propagate_same g pi C'.1 (combine (initialValue k) c) h hmax hm hD' hB
      rw [← hDF]; exact this

/-- **C33**: the determinant the periodic search looks at is zero exactly when there are initial values
`(u, v) ≠ (0, 0)` at the left end whose solution takes the values `K (u, v)` at the right end. -/
theorem C33_determinant_zero_iff {P : Prob K} {E : K} {useH : Bool} (g : P.Good E useH) (pi : K)
    (hmi : P.matchIndex < P.secs.length) (k : M2 K) :
    ∃ e, matchingError P k pi E useH = .ok e ∧
      ((determinant e.1).1 = 0 ↔
        ∃ u v : K, ¬ (u = 0 ∧ v = 0) ∧ ∃ r, P.propagate pi E ⟨u, v, 0, 0⟩ P.dmin P.dmax useH = .ok r ∧
          r.1.y = k.a * u + k.b * v ∧ r.1.dy = k.c * u + k.d * v) := by
  obtain ⟨e, he, hk⟩ := error_kernel_iff g pi hmi k
  refine ⟨e, he, ?_⟩
  have h2 : (2 : K) ≠ 0 := two_ne_zero
  rw [show (determinant e.1).1 = e.1.1.y * e.1.2.dy - e.1.2.y * e.1.1.dy from rfl, kernel_iff]
  constructor
  · rintro ⟨c1, c2, hne, h⟩
    obtain ⟨r, hr, hr1, hr2⟩ := (hk (c1, c2)).mp h
    refine ⟨c1 + c2, c1 - c2, ?_, r, ?_, ?_, ?_⟩
    · rintro ⟨ha, hb⟩
      refine hne ⟨?_, ?_⟩
      · have : 2 * c1 = 0 := by linear_combination ha + hb
        exact (mul_eq_zero.mp this).resolve_left h2
      · have : 2 * c2 = 0 := by linear_combination ha - hb
        exact (mul_eq_zero.mp this).resolve_left h2
    · rw [← hr]; congr 1; simp only [combine, initialValue, idM]
      congr 1 <;> ring
    · rw [hr1]; simp only [combine, initialValue]; ring
    · rw [hr2]; simp only [combine, initialValue]; ring
  · rintro ⟨u, v, hne, r, hr, hr1, hr2⟩
    refine ⟨(u + v) / 2, (u - v) / 2, ?_, ?_⟩
    · rintro ⟨ha, hb⟩
      rw [div_eq_zero_iff] at ha hb
      have ha := ha.resolve_right h2
      have hb := hb.resolve_right h2
      refine hne ⟨?_, ?_⟩
      · have : 2 * u = 0 := by linear_combination ha + hb
        exact (mul_eq_zero.mp this).resolve_left h2
      · have : 2 * v = 0 := by linear_combination ha - hb
        exact (mul_eq_zero.mp this).resolve_left h2
    · refine (hk ((u + v) / 2, (u - v) / 2)).mpr ⟨r, ?_, ?_, ?_⟩
      · rw [← hr]; congr 1; simp only [combine, initialValue, idM]
        congr 1 <;> ring
      · rw [hr1]; simp only [combine, initialValue]; ring
      · rw [hr2]; simp only [combine, initialValue]; ring

/-- **C34 (partial)** for the route through `eigenpairs` and `eigenpairsByIndex`: for a kernel vector of
the error matrix the two boundary values handed to `Matslise::eigenfunction` belong to one solution
that satisfies the boundary condition. (Missing: `PeriodicMatslise::eigenfunction` itself, see
`C34_eigenfunction_not_periodic`.) -/
theorem C34_eigenpairs_partial {P : Prob K} {E : K} {useH : Bool} (g : P.Good E useH) (pi : K)
    (hmi : P.matchIndex < P.secs.length) (k : M2 K) (kernel : K → K × K) :
    ∃ e, matchingError P k pi E useH = .ok e ∧
      ((e.1.1.y * (kernel E).1 + e.1.2.y * (kernel E).2 = 0 ∧
        e.1.1.dy * (kernel E).1 + e.1.2.dy * (kernel E).2 = 0) →
        ∀ b ∈ pairBoundaries k kernel E false,
          (b.2.y = k.a * b.1.y + k.b * b.1.dy ∧ b.2.dy = k.c * b.1.y + k.d * b.1.dy) ∧
          ∃ r, P.propagate pi E b.1 P.dmin P.dmax useH = .ok r ∧ r.1.y = b.2.y ∧ r.1.dy = b.2.dy) ∧
      ((e.1.1.y = 0 ∧ e.1.1.dy = 0 ∧ e.1.2.y = 0 ∧ e.1.2.dy = 0) →
        ∀ b ∈ pairBoundaries k kernel E true,
          (b.2.y = k.a * b.1.y + k.b * b.1.dy ∧ b.2.dy = k.c * b.1.y + k.d * b.1.dy) ∧
          ∃ r, P.propagate pi E b.1 P.dmin P.dmax useH = .ok r ∧ r.1.y = b.2.y ∧ r.1.dy = b.2.dy) := by
  obtain ⟨e, he, hk⟩ := error_kernel_iff g pi hmi k
  refine ⟨e, he, ?_, ?_⟩
  · intro h b hb
    simp only [pairBoundaries, Bool.false_eq_true, if_false, List.mem_singleton] at hb
    subst hb
    refine ⟨⟨?_, ?_⟩, (hk _).mp h⟩ <;> simp only [combine, initialValue, idM] <;> ring
  · rintro ⟨h1, h2, h3, h4⟩ b hb
    simp only [pairBoundaries, if_true, List.mem_cons, List.not_mem_nil, or_false] at hb
    have c1 : ∀ m : M2 K, combine (initialValue m) (1, 0) = (initialValue m).1 := by
      intro m; simp [combine, initialValue]
    have c2 : ∀ m : M2 K, combine (initialValue m) (0, 1) = (initialValue m).2 := by
      intro m; simp [combine, initialValue]
    rcases hb with rfl | rfl
    · have := (hk (1, 0)).mp (by rw [h1, h2, h3, h4]; simp)
      rw [c1, c1] at this
      refine ⟨⟨?_, ?_⟩, this⟩ <;> simp only [initialValue, idM] <;> ring
    · have := (hk (0, 1)).mp (by rw [h1, h2, h3, h4]; simp)
      rw [c2, c2] at this
      refine ⟨⟨?_, ?_⟩, this⟩ <;> simp only [initialValue, idM] <;> ring

end det

/-- **C33**: the second value is the derivative of the determinant with respect to E. -/
theorem C33_determinant_derivative (P : Prob ℝ) (hm : IsMesh P.mesh P.dmin P.dmax)
    (hh : ∀ s ∈ P.secs, 0 ≤ s.h) (hmi : P.matchIndex < P.secs.length) (pi E : ℝ) (useH : Bool)
    (hT : ∀ s ∈ P.secs, ∀ δ, 0 ≤ δ → δ ≤ s.h → TDeriv (fun e => s.tr e δ useH) E) (k : M2 ℝ) :
    ∃ err : ℝ → (Y ℝ × Y ℝ) × (ℝ × ℝ), (∀ e, matchingError P k pi e useH = .ok (err e)) ∧
      HasDerivAt (fun e => (determinant (err e).1).1) (determinant (err E).1).2 E := by
  have hmm : P.dmin ≤ (P.secs[P.matchIndex]).max ∧ (P.secs[P.matchIndex]).max ≤ P.dmax :=
    max_in_domain hm hmi
  have hd : P.dmin ≤ P.dmax := hmm.1.trans hmm.2
  have hc : ∀ y : Y ℝ, y.yE = 0 → y.dyE = 0 → EDeriv (fun _ => y) E := fun y h1 h2 =>
    ⟨by rw [h1]; exact hasDerivAt_const _ _, by rw [h2]; exact hasDerivAt_const _ _⟩
  obtain ⟨l0, hl0, a1, a2⟩ := C15_E_derivative P hm hh pi E useH hT _
    (hc (initialValue idM).1 rfl rfl) ⟨le_rfl, hd⟩ hmm
  obtain ⟨l1, hl1, b1, b2⟩ := C15_E_derivative P hm hh pi E useH hT _
    (hc (initialValue idM).2 rfl rfl) ⟨le_rfl, hd⟩ hmm
  obtain ⟨r0, hr0, c1, c2⟩ := C15_E_derivative P hm hh pi E useH hT _
    (hc (initialValue k).1 rfl rfl) ⟨hd, le_rfl⟩ hmm
  obtain ⟨r1, hr1, d1, d2⟩ := C15_E_derivative P hm hh pi E useH hT _
    (hc (initialValue k).2 rfl rfl) ⟨hd, le_rfl⟩ hmm
  refine ⟨fun e => ((ySub (l0 e).1 (r0 e).1, ySub (l1 e).1 (r1 e).1),
    (((l0 e).2 - (r0 e).2) / pi, ((l1 e).2 - (r1 e).2) / pi)), ?_, ?_⟩
  · intro e
    unfold matchingError
    simp only [List.getElem?_eq_getElem hmi, hl0, hl1, hr0, hr1, Outcome.bind_ok, Outcome.pure_eq]
  · have := ((a1.sub c1).mul (b2.sub d2)).sub ((b1.sub d1).mul (a2.sub c2))
    refine this.congr_deriv ?_
    simp only [determinant, ySub, Pi.sub_apply]
    ring

/-! ## C34 -/

/-- The free particle (`V = 0`) at `E = 0` on `[0, 1]`: one sector with transfer matrix
`[[1, δ], [0, 1]]`. -/
def freeT (δ : ℚ) : T ℚ := ⟨⟨1, δ, 0, 1⟩, ⟨-δ ^ 2 / 2, -δ ^ 3 / 6, -δ, -δ ^ 2 / 2⟩⟩

def freeProb : Prob ℚ where
  secs := [{ min := 0, max := 1, dir := .forward, h := 1, tr := fun _ δ _ => freeT δ,
             theta0 := fun _ _ => 0, prufer := fun _ _ _ _ => 0 }]
  dmin := 0
  dmax := 1
  matchIndex := 0

theorem freeProb_good : freeProb.Good 0 true where
  mesh :=
    { tiling :=
        { nonempty := by simp [freeProb, Prob.mesh, bounds]
          first := by simp [freeProb, Prob.mesh, bounds]
          last := by simp [freeProb, Prob.mesh, bounds]
          joined := by intro i hi; simp [freeProb, Prob.mesh, bounds] at hi }
      ordered := by
        intro s hs
        simp only [Prob.mesh, freeProb, List.map_cons, List.map_nil, List.mem_singleton] at hs
        subst hs; simp }
  secs := by
    intro s hs
    simp only [freeProb, List.mem_singleton] at hs
    subst hs
    exact ⟨by simp, by simp, Or.inl rfl, fun δ _ _ => by
      constructor <;> simp only [freeT, M2.det] <;> ring⟩

/-- **C34 is false of the code**: for the free particle with periodic boundary conditions at the
eigenvalue `E = 0` (constant solutions), the error matrix is `[[1, -1], [0, 0]]`, its eigenpairs are
`(0, (1, 1))` and `(1, (1, 0))`, and `PeriodicMatslise::eigenfunction` builds the eigenfunction with
boundary values `(1, 1)` on both sides. But the solution with values `(1, 1)` on the left has values
`(2, 1)` on the right: it is not periodic. -/
theorem C34_eigenfunction_not_periodic :
    ∃ (e : (Y ℚ × Y ℚ) × (ℚ × ℚ)) (v : Y ℚ) (r : Y ℚ × ℚ),
      freeProb.Good 0 true ∧
      matchingError freeProb idM 3 0 = .ok e ∧
      -- (1, 1) and (1, 0) are the eigenvectors of the error matrix, for the eigenvalues 0 and 1
      (e.1.1.y * 1 + e.1.2.y * 1 = 0 ∧ e.1.1.dy * 1 + e.1.2.dy * 1 = 0) ∧
      (e.1.1.y * 1 + e.1.2.y * 0 = 1 * 1 ∧ e.1.1.dy * 1 + e.1.2.dy * 0 = 1 * 0) ∧
      eigenfunctionBoundaries (((0 : ℚ) ^ 2, (1, 1)), ((1 : ℚ) ^ 2, (1, 0))) = [(v, v)] ∧
      freeProb.propagate 3 0 v 0 1 = .ok r ∧ ¬ (r.1.y = v.y) := by
  refine ⟨((⟨1, 0, -2/3, -3/2⟩, ⟨-1, 0, -1/3, -1/2⟩), (0, 0)), ⟨1, 1, 0, 0⟩, (⟨2, 1, -2/3, -3/2⟩, 0),
    freeProb_good, by decide +kernel, by decide +kernel, by decide +kernel, by decide +kernel,
    by decide +kernel, by decide +kernel⟩

/-- Non-vacuity of C33: the same problem has a periodic solution, the constant one. -/
example : ∃ r, freeProb.propagate 3 0 ⟨2, 0, 0, 0⟩ 0 1 = .ok r ∧ r.1.y = 2 ∧ r.1.dy = 0 := by
  exact ⟨(⟨2, 0, -1, -2⟩, 0), by decide +kernel, rfl, rfl⟩

end Verif.Periodic
