import Verif.Props.Matscs
import Mathlib.Data.List.Sort

/-!
# `Matscs::eigenfunction` (C58)
-/
namespace Verif.Matscs
open Verif.Mesh Verif.Spec

section thms
variable {n : Nat} {K : Type} [Field K] [LinearOrder K] [IsStrictOrderedRing K]

theorem Tn.mul_zero' (A : Tn n K) : A.mul (⟨0, 0⟩ : Yn n n K) = ⟨0, 0⟩ := by
  simp [Tn.mul]

/-- In the inner loop the point stays to the right of the (never updated) sector until all sectors are used up. -/
theorem innerLoop_beyond (s : CSec n K) (E x : K) (count : Nat) (hx : s.max < x) :
    ∀ (fuel i : Nat) (y : Yn n n K), count - i ≤ fuel → 0 < fuel → innerLoop s E x count fuel i y = .ok none := by
  intro fuel
  induction fuel with
  | zero => intro i y _ h; omega
  | succ fuel ih =>
    intro i y hf _
    unfold innerLoop
    simp only [ccmp_lt, hx, decide_true, if_true]
    by_cases hc : count ≤ i + 1
    · simp [hc]
    · simp only [hc, if_false]
      exact ih (i + 1) _ (by omega) (by omega)

theorem innerLoop_inside (s : CSec n K) (E x : K) (count : Nat) (hx : x ≤ s.max) (fuel i : Nat) (y : Yn n n K) :
    innerLoop s E x count (fuel + 1) i y = .ok (some (i, y)) := by
  unfold innerLoop
  simp [hx]

/-- The outer loop, started in sector 0 with the zero block on sorted points. -/
theorem outerLoop_zero {P : CProb n K} {s0 : CSec n K} {rest : List (CSec n K)} (hs : P.secs = s0 :: rest) (E : K) :
    ∀ (xs : List K) (ys : List (Yn n n K)), xs.Pairwise (· ≤ ·) → (∀ y ∈ ys, y = ⟨0, 0⟩) →
      ∃ zs, outerLoop P E xs 0 ⟨0, 0⟩ ys = .ok (zs, xs.filter (fun p => decide (s0.max < p))) ∧ (∀ y ∈ zs, y = ⟨0, 0⟩) ∧
        zs.length = ys.length + (xs.filter (fun p => decide (p ≤ s0.max))).length := by
  intro xs
  induction xs with
  | nil => intro ys _ hz; exact ⟨ys, rfl, hz, by simp⟩
  | cons x xs ih =>
    intro ys hsort hz
    unfold outerLoop
    simp only [hs, List.getElem?_cons_zero]
    by_cases hx : s0.max < x
    · have hall : ∀ p ∈ xs, s0.max < p := fun p hp => hx.trans_le (List.rel_of_pairwise_cons hsort hp)
      refine ⟨ys, ?_, hz, ?_⟩
      · rw [innerLoop_beyond s0 E x _ hx _ _ _ (by simp) (by simp)]
        simp only [Outcome.bind_ok, Outcome.pure_eq]
        congr 2
        symm
        rw [List.filter_eq_self]
        intro p hp
        rcases List.mem_cons.mp hp with rfl | hp
        · simpa using hx
        · simpa using hall p hp
      · have : (List.filter (fun p => decide (p ≤ s0.max)) (x :: xs)) = [] := by
          rw [List.filter_eq_nil_iff]
          intro p hp
          rcases List.mem_cons.mp hp with rfl | hp
          · simpa using hx
          · simpa using hall p hp
        rw [this]; simp
    · have hx' := not_lt.mp hx
      rw [innerLoop_inside s0 E x _ hx']
      simp only [Outcome.bind_ok]
      obtain ⟨zs, h1, h2, h3⟩ := ih (ys ++ [(s0.tr E (x - s0.min) true).mul ⟨0, 0⟩]) (List.Pairwise.of_cons hsort) (by
        intro y hy
        rcases List.mem_append.mp hy with hy | hy
        · exact hz y hy
        · rw [List.mem_singleton.mp hy, Tn.mul_zero'])
      refine ⟨zs, ?_, h2, ?_⟩
      · rw [h1]
        simp [hx]
      · rw [h3]
        simp [hx']
        omega

/-- **C58 (negation).** `Matscs::eigenfunction`, for every non-empty mesh, every energy and every list of points: the call
returns, every value returned is zero (both the solution and its energy derivative), and there are only as many values
as points in the first sector (or left of it, down to `xmin - EPS`): points in the other sectors get none. -/
theorem C58_fails {P : CProb n K} {s0 : CSec n K} {rest : List (CSec n K)} (hs : P.secs = s0 :: rest) (eps E : K) (x : List K) :
    ∃ ys x', eigenfunction eps P E x = .ok (ys, x') ∧ (∀ y ∈ ys, y.y = 0 ∧ y.yE = 0) ∧
      ys.length = (x.filter (fun p => decide (P.xmin - eps ≤ p ∧ p ≤ s0.max))).length := by
  unfold eigenfunction
  simp only [ccmp_le, ccmp_lt]
  have hsort : (x.mergeSort (fun a b => decide (a ≤ b))).Pairwise (· ≤ ·) := by
    have := List.pairwise_mergeSort (le := fun a b : K => decide (a ≤ b))
      (fun a b c h1 h2 => by simp only [decide_eq_true_eq] at *; exact h1.trans h2)
      (fun a b => by simp only [Bool.or_eq_true, decide_eq_true_eq]; exact le_total a b) x
    simpa using this
  have hperm : (x.mergeSort (fun a b => decide (a ≤ b))).Perm x := List.mergeSort_perm x _
  generalize x.mergeSort (fun a b => decide (a ≤ b)) = z at hsort hperm
  have hdrop : ∀ l : List K, l.Pairwise (· ≤ ·) → l.dropWhile (fun p => decide (p < P.xmin - eps)) = l.filter (fun p => decide (P.xmin - eps ≤ p)) := by
    intro l hl
    induction l with
    | nil => rfl
    | cons p l ih =>
      by_cases hp : p < P.xmin - eps
      · rw [List.dropWhile_cons_of_pos (by simpa using hp), ih (List.Pairwise.of_cons hl), List.filter_cons_of_neg (by simp only [decide_eq_true_eq, not_le]; exact hp)]
      · rw [List.dropWhile_cons_of_neg (by simpa using hp)]
        symm
        rw [List.filter_eq_self]
        intro q hq
        have hpq : p ≤ q := by
          rcases List.mem_cons.mp hq with rfl | hq
          · exact le_rfl
          · exact List.rel_of_pairwise_cons hl hq
        simpa using (not_lt.mp hp).trans hpq
  obtain ⟨zs, h1, h2, h3⟩ := outerLoop_zero hs E (z.dropWhile (fun p => decide (p < P.xmin - eps))) []
    (hsort.sublist (List.dropWhile_sublist _)) (by simp)
  rw [h1]
  refine ⟨zs, _, rfl, fun y hy => ⟨by rw [h2 y hy], by rw [h2 y hy]⟩, ?_⟩
  · rw [h3, hdrop z hsort, List.filter_filter]
    simp only [List.length_nil, Nat.zero_add]
    rw [← (hperm.filter _).length_eq]
    congr 2
    funext p
    rw [Bool.decide_and, Bool.and_comm]

/-- **C58 (partial).** What remains true: the number of values is right when all points lie in the first sector. The values
themselves are zero (`C58_fails`), so they are not an eigenfunction. -/
theorem C58_first_sector_count_partial {P : CProb n K} {s0 : CSec n K} {rest : List (CSec n K)} (hs : P.secs = s0 :: rest) (eps E : K) (x : List K)
    (hx : ∀ p ∈ x, P.xmin - eps ≤ p ∧ p ≤ s0.max) :
    ∃ ys x', eigenfunction eps P E x = .ok (ys, x') ∧ ys.length = x.length := by
  obtain ⟨ys, x', h1, -, h3⟩ := C58_fails hs eps E x
  refine ⟨ys, x', h1, ?_⟩
  rw [h3, List.filter_eq_self.mpr (fun p hp => by simpa using hx p hp)]

/-- Non-vacuity: two sectors on [0,3], three points, one of them in the second sector: two values, all zero. -/
example : ∃ ys x', eigenfunction (1/1000) exC 5 [2, 1/2, 1] = .ok (ys, x') ∧ (∀ y ∈ ys, y.y = 0 ∧ y.yE = 0) ∧ ys.length = 2 := by
  obtain ⟨ys, x', h1, h2, h3⟩ := C58_fails (P := exC) rfl (1/1000) 5 [2, 1/2, 1]
  refine ⟨ys, x', h1, h2, h3.trans ?_⟩
  simp only [exC]
  decide +kernel

end thms
end Verif.Matscs
