import Verif.Model.CalcT
import Verif.Lemmas.FormulaFacts

/-!
# Closed forms of the loops in `calculateT`
-/
namespace Verif.CalcT
open Verif.YT Verif.Formulas Verif.PL
open scoped BigOperators

/-- The four components of a matrix. -/
inductive Cp | a | b | c | d

/-- component of a matrix -/
def Cp.of {K : Type} : Cp → M2 K → K
  | .a => M2.a | .b => M2.b | .c => M2.c | .d => M2.d
/-- component of a table entry -/
def Cp.sel : Cp → Entry4 → Entry
  | .a => Entry4.a | .b => Entry4.b | .c => Entry4.c | .d => Entry4.d

section
variable {K : Type} [Field K] [LinearOrder K] [IsStrictOrderedRing K]

theorem of_add (p : Cp) (m n : M2 K) : p.of (m2Add m n) = p.of m + p.of n := by cases p <;> rfl
theorem of_smul (p : Cp) (m : M2 K) (f : K) : p.of (m2Smul m f) = p.of m * f := by cases p <;> rfl
theorem of_zero (p : Cp) : p.of (m2Zero : M2 K) = 0 := by cases p <;> rfl

theorem hornerLoop_of (p : Cp) (f : ℕ → M2 K) (x : K) (k : ℕ) (r : M2 K) :
    p.of (hornerLoop f x k r) = p.of r * x ^ k + ∑ j ∈ Finset.range k, p.of (f j) * x ^ j := by
  induction k generalizing r with
  | zero => simp [hornerLoop]
  | succ k ih => rw [hornerLoop, ih, of_add, of_smul, Finset.sum_range_succ]; ring

theorem horner_of (p : Cp) (f : ℕ → M2 K) (x : K) {n : ℕ} (hn : 1 ≤ n) :
    p.of (horner f x n) = ∑ j ∈ Finset.range n, p.of (f j) * x ^ j := by
  obtain ⟨k, rfl⟩ : ∃ k, n = k + 1 := ⟨n - 1, by omega⟩
  rw [horner, Nat.add_sub_cancel, hornerLoop_of, Finset.sum_range_succ]; ring

theorem etaLoop_t (p : Cp) (N : ℕ) (hor : ℕ → M2 K) (eta : ℕ → K) (dd : K) (k i : ℕ) (t : T K) :
    p.of (etaLoop N hor eta dd k i t).t = p.of t.t + ∑ j ∈ Finset.range k, p.of (hor (i + j)) * eta (i + j) := by
  induction k generalizing i t with
  | zero => simp [etaLoop]
  | succ k ih =>
    rw [etaLoop, ih, Finset.sum_range_succ']
    simp only [of_add, of_smul, Nat.add_zero, Nat.add_succ, Nat.succ_add]
    ring

theorem etaLoop_dt (p : Cp) (N : ℕ) (hor : ℕ → M2 K) (eta : ℕ → K) (dd : K) (k i : ℕ) (t : T K) :
    p.of (etaLoop N hor eta dd k i t).dt = p.of t.dt +
      ∑ j ∈ Finset.range k, if i + j + 1 < N then p.of (hor (i + j)) * (-dd * eta (i + j + 1) / 2) else 0 := by
  induction k generalizing i t with
  | zero => simp [etaLoop]
  | succ k ih =>
    rw [etaLoop, ih, Finset.sum_range_succ']
    simp only [Nat.add_zero, Nat.add_succ, Nat.succ_add]
    split
    · rw [of_add, of_smul, ccmp_lit]; push_cast; ring
    · ring

theorem body_t (p : Cp) (N : ℕ) (hor : ℕ → M2 K) (eta : ℕ → K) (vsE delta : K) :
    p.of (body N hor eta vsE delta).t = (match p with | .c => vsE * delta * eta 1 | _ => 0) +
      ∑ j ∈ Finset.range N, p.of (hor j) * eta j := by
  unfold body
  rw [etaLoop_t]
  cases p <;> simp [Cp.of]

theorem body_dt (p : Cp) (N : ℕ) (hor : ℕ → M2 K) (eta : ℕ → K) (vsE delta : K) :
    p.of (body N hor eta vsE delta).dt =
      (match p with | .c => -delta * eta 1 - vsE * (delta * delta) * delta * eta 2 / 2 | _ => 0) +
      ∑ j ∈ Finset.range N, if j + 1 < N then p.of (hor j) * (-(delta * delta) * eta (j + 1) / 2) else 0 := by
  unfold body
  rw [etaLoop_dt]
  cases p <;> simp [Cp.of]

end

theorem coeff_of (p : Cp) (h : ℝ) (v : ℕ → ℝ) (i j : ℕ) :
    p.of ((mkSec h v).coeff i j) = match (tRow i).drop j with | [] => 0 | e :: _ => entryVal v h (p.sel e) := by
  unfold mkSec tRow
  dsimp only
  cases (tDelta.getD i []).drop j with
  | nil => exact of_zero p
  | cons e l => cases p <;> rfl

theorem rowVal_eq_sum (sel : Entry4 → Entry) (v : ℕ → ℝ) (h δ : ℝ) (l : List Entry4) (n : ℕ) (hn : l.length ≤ n) :
    rowVal sel v h δ l =
      ∑ j ∈ Finset.range n, (match l.drop j with | [] => 0 | e :: _ => entryVal v h (sel e)) * δ ^ j := by
  induction l generalizing n with
  | nil => simp [rowVal]
  | cons e l ih =>
    obtain ⟨m, rfl⟩ : ∃ m, n = m + 1 := ⟨n - 1, by simp at hn; omega⟩
    rw [Finset.sum_range_succ', rowVal, ih m (by simpa using hn), Finset.mul_sum]
    simp only [List.drop_succ_cons, List.drop_zero, pow_zero, mul_one]
    rw [add_comm]
    congr 1
    exact Finset.sum_congr rfl (fun j _ => by rw [pow_succ]; ring)

theorem tRow_length (i : ℕ) : (tRow i).length ≤ 17 := by
  unfold tRow
  by_cases hi : i < tDelta.length
  · rw [List.getD_eq_getElem?_getD, List.getElem?_eq_getElem hi]
    have := List.all_eq_true.mp tDelta_widths _ (List.getElem_mem hi)
    exact Nat.ble_eq.mp this
  · rw [List.getD_eq_getElem?_getD, List.getElem?_eq_none (by omega)]; simp

theorem tRow_ok (p : Cp) (i : ℕ) : okRow p.sel (tRow i) = true := by
  unfold tRow
  by_cases hi : i < tDelta.length
  · rw [List.getD_eq_getElem?_getD, List.getElem?_eq_getElem hi]
    have := List.all_eq_true.mp tDelta_ok _ (List.getElem_mem hi)
    simp only [Bool.and_eq_true] at this
    cases p
    · exact this.1.1.1
    · exact this.1.1.2
    · exact this.1.2
    · exact this.2
  · rw [List.getD_eq_getElem?_getD, List.getElem?_eq_none (by omega)]; rfl

/-- The Horner value of row `i` is the polynomial checked by the kernel. -/
theorem hor_eq (p : Cp) {h : ℝ} (hh : h ≠ 0) (v : ℕ → ℝ) (i : ℕ) (δ : ℝ) :
    p.of (horner ((mkSec h v).coeff i) δ hmaxDelta) = eval v h (δ / h) (rp p.sel i) / D := by
  have hD : (D : ℝ) ≠ 0 := by unfold D; norm_num
  rw [horner_of p _ _ (by decide), rp, eval_rowPL v h _ p.sel 0 _ (tRow_ok p i), div_mul_cancel₀ δ hh,
    rowVal_eq_sum p.sel v h δ (tRow i) hmaxDelta (tRow_length i)]
  simp only [coeff_of]
  field_simp

/-- The entries of `calculateT`, as the functions studied in `CPM`, for any values of the η functions. -/
theorem calcDelta_of (p : Cp) (eta : ℕ → ℝ → ℕ → ℝ) {h : ℝ} (hh : h ≠ 0) (v : ℕ → ℝ) (E δ : ℝ) :
    p.of (calcDelta eta (mkSec h v) E δ).t =
      (match p with | .c => (v 0 - E) * δ * eta 9 ((v 0 - E) * (δ * δ)) 1 | _ => 0) +
      ∑ i ∈ Finset.range 9, eval v h (δ / h) (rp p.sel i) / D * eta 9 ((v 0 - E) * (δ * δ)) i := by
  unfold calcDelta
  rw [body_t]
  simp only [hor_eq p hh]
  rfl

end Verif.CalcT
