import Verif.Lemmas.MatscsKernel
import Mathlib.Algebra.BigOperators.Intervals
import Mathlib.Tactic.Module

/-!
# The transfer matrix of a sector of a coupled system as one flat sum
-/
namespace Verif.NP
open Verif.MFormulas Verif.CalcT Verif.YT
open scoped BigOperators

/-- The term `q · δ^j · h^p · word · e_i`. -/
structure FT where
  i : Nat
  j : Nat
  p : Nat
  t : MTerm

def FT.rm (f : FT) : RM := NP.mk f.i f.j f.p f.t.w (rnd f.t)

def entryF (i j : Nat) (e : MEntry) : List FT := e.flatMap (fun pt => pt.2.map (fun t => ⟨i, j, pt.1, t⟩))
def rowF (sel : MEntry4 → MEntry) (i : Nat) : Nat → List MEntry4 → List FT
  | _, [] => []
  | j, e :: l => entryF i j (sel e) ++ rowF sel i (j + 1) l
def rowsF (sel : MEntry4 → MEntry) : Nat → List (List MEntry4) → List FT
  | _, [] => []
  | i, r :: l => rowF sel i 0 r ++ rowsF sel (i + 1) l
def hF (sel : MEntry4 → MEntry) : Nat → List MEntry4 → List FT
  | _, [] => []
  | i, e :: l => entryF i 0 (sel e) ++ hF sel (i + 1) l

theorem entryNP_eq (i j : Nat) (e : MEntry) : entryNP i j e = (entryF i j e).map FT.rm := by
  unfold entryNP entryF
  rw [List.map_flatMap]
  congr 1
  funext pt
  rw [List.map_map]
  rfl

theorem rowNP_eq (sel : MEntry4 → MEntry) (i j : Nat) (l : List MEntry4) : rowNP sel i j l = (rowF sel i j l).map FT.rm := by
  induction l generalizing j with
  | nil => rfl
  | cons e l ih => rw [rowNP, rowF, List.map_append, entryNP_eq, ih]

theorem rowsNP_eq (sel : MEntry4 → MEntry) (i : Nat) (l : List (List MEntry4)) : rowsNP sel i l = (rowsF sel i l).map FT.rm := by
  induction l generalizing i with
  | nil => rfl
  | cons e l ih => rw [rowsNP, rowsF, List.map_append, rowNP_eq, ih]

theorem hNP_eq (sel : MEntry4 → MEntry) (i : Nat) (l : List MEntry4) : hNP sel i l = (hF sel i l).map FT.rm := by
  induction l generalizing i with
  | nil => rfl
  | cons e l ih => rw [hNP, hF, List.map_append, entryNP_eq, ih]

section
variable {K A : Type} [Field K] [Ring A] [Algebra K A]

/-- The value of a term with literal values `q`. -/
def FT.val (q : MTerm → K) (v e : ℕ → A) (h δ : K) (f : FT) : A := (q f.t * (δ ^ f.j * h ^ f.p)) • (word v f.t.w * e f.i)

/-- The value of a list of terms. -/
def evc (q : MTerm → K) (v e : ℕ → A) (h δ : K) : List FT → A
  | [] => 0
  | f :: l => f.val q v e h δ + evc q v e h δ l

variable (q : MTerm → K) (v e : ℕ → A) (h δ : K)

theorem evc_append (a b : List FT) : evc q v e h δ (a ++ b) = evc q v e h δ a + evc q v e h δ b := by
  induction a with
  | nil => simp [evc]
  | cons x a ih => simp [evc, ih, add_assoc]

theorem evc_terms (i j p : ℕ) (ts : List MTerm) :
    evc q v e h δ (ts.map (fun t => ⟨i, j, p, t⟩)) = (δ ^ j * h ^ p) • (termsVal q v ts * e i) := by
  induction ts with
  | nil => simp [evc, termsVal]
  | cons t ts ih =>
    rw [List.map_cons, evc, ih, termsVal, FT.val, add_mul, smul_add, smul_mul_assoc, smul_smul, mul_comm (q t)]

theorem evc_entry (i j : ℕ) (en : MEntry) : evc q v e h δ (entryF i j en) = δ ^ j • (entryVal q v h en * e i) := by
  unfold entryF
  induction en with
  | nil => simp [evc, entryVal]
  | cons pt en ih =>
    rw [List.flatMap_cons, evc_append, ih, evc_terms, entryVal, add_mul, smul_add, smul_mul_assoc, smul_smul]

/-- block `sel` of entry `j` of a row -/
def rowAt (sel : MEntry4 → MEntry) (row : List MEntry4) (j : ℕ) : A :=
  match row.drop j with
  | [] => 0
  | en :: _ => entryVal q v h (sel en)

theorem evc_row (sel : MEntry4 → MEntry) (i j : ℕ) (row : List MEntry4) (n : ℕ) (hn : row.length ≤ n) :
    evc q v e h δ (rowF sel i j row) = (∑ k ∈ Finset.range n, δ ^ (j + k) • rowAt q v h sel row k) * e i := by
  induction row generalizing j n with
  | nil => simp [rowF, evc, rowAt]
  | cons en row ih =>
    rw [List.length_cons] at hn
    obtain ⟨n, rfl⟩ : ∃ m, n = m + 1 := ⟨n - 1, by omega⟩
    rw [rowF, evc_append, evc_entry, ih (j + 1) n (by omega), Finset.sum_range_succ', add_mul, add_comm, smul_mul_assoc]
    congr 2
    refine Finset.sum_congr rfl (fun k _ => ?_)
    rw [show j + 1 + k = j + (k + 1) by omega]
    rfl

theorem evc_rows (sel : MEntry4 → MEntry) (i : ℕ) (rows : List (List MEntry4)) (n : ℕ) (hn : ∀ r ∈ rows, r.length ≤ n) :
    evc q v e h δ (rowsF sel i rows) = ∑ k ∈ Finset.range rows.length, (∑ j ∈ Finset.range n, δ ^ j • rowAt q v h sel (rows.getD k []) j) * e (i + k) := by
  induction rows generalizing i with
  | nil => simp [rowsF, evc]
  | cons r rows ih =>
    rw [rowsF, evc_append, ih (i + 1) (fun r hr => hn r (by simp [hr])), evc_row q v e h δ sel i 0 r n (hn r (by simp)), List.length_cons, Finset.sum_range_succ',
      add_comm]
    congr 1
    · refine Finset.sum_congr rfl (fun k _ => ?_)
      rw [show i + 1 + k = i + (k + 1) by omega]
      rfl
    · simp

/-- block `sel` of row `i` of the table of full steps -/
theorem evc_h (sel : MEntry4 → MEntry) (i : ℕ) (row : List MEntry4) :
    evc q v e h δ (hF sel i row) = ∑ k ∈ Finset.range row.length, rowAt q v h sel row k * e (i + k) := by
  induction row generalizing i with
  | nil => simp [hF, evc]
  | cons en row ih =>
    rw [hF, evc_append, ih (i + 1), List.length_cons, Finset.sum_range_succ', evc_entry, add_comm]
    congr 1
    · refine Finset.sum_congr rfl (fun k _ => ?_)
      rw [show i + 1 + k = i + (k + 1) by omega]
      rfl
    · simp [rowAt]

/-- A block of a `2 × 2` block matrix with its table. -/
structure Blk where
  sel : MEntry4 → MEntry
  of : M2 A → A
  add : ∀ m n, of (m2Add m n) = of m + of n
  smul : ∀ m f, of (m2Smul m f) = of m * f
  scale : ∀ (x : K) m, of (m2Scale x m) = x • of m
  zero : of m2Zero = 0
  val : ∀ q v h (en : MEntry4), of (en.val q v h : M2 A) = entryVal q v (h : K) (sel en)

def blkA : Blk (K := K) (A := A) := ⟨MEntry4.a, M2.a, fun _ _ => rfl, fun _ _ => rfl, fun _ _ => rfl, rfl, fun _ _ _ _ => rfl⟩
def blkB : Blk (K := K) (A := A) := ⟨MEntry4.b, M2.b, fun _ _ => rfl, fun _ _ => rfl, fun _ _ => rfl, rfl, fun _ _ _ _ => rfl⟩
def blkC : Blk (K := K) (A := A) := ⟨MEntry4.c, M2.c, fun _ _ => rfl, fun _ _ => rfl, fun _ _ => rfl, rfl, fun _ _ _ _ => rfl⟩
def blkD : Blk (K := K) (A := A) := ⟨MEntry4.d, M2.d, fun _ _ => rfl, fun _ _ => rfl, fun _ _ => rfl, rfl, fun _ _ _ _ => rfl⟩

variable (b : Blk (K := K) (A := A))

theorem of_coeffD (i j : ℕ) : b.of (coeffD q v h i j) = rowAt q v h b.sel (tDelta.getD i []) j := by
  unfold coeffD rowAt
  split <;> rename_i hd <;> simp only [hd]
  · exact b.zero
  · exact b.val ..

theorem of_coeffH (i : ℕ) : b.of (coeffH q v h i) = rowAt q v h b.sel tH i := by
  unfold coeffH rowAt
  split <;> rename_i hd <;> simp only [hd]
  · exact b.zero
  · exact b.val ..

theorem of_hornerLoop (f : ℕ → M2 A) (x : K) (k : ℕ) (r : M2 A) :
    b.of (hornerLoopM f x k r) = x ^ k • b.of r + ∑ j ∈ Finset.range k, x ^ j • b.of (f j) := by
  induction k generalizing r with
  | zero => simp [hornerLoopM]
  | succ k ih =>
    rw [hornerLoopM, ih, b.add, b.scale, smul_add, smul_smul, ← pow_succ, Finset.sum_range_succ]; abel

theorem of_horner (f : ℕ → M2 A) (x : K) (n : ℕ) : b.of (hornerM f x (n + 1)) = ∑ j ∈ Finset.range (n + 1), x ^ j • b.of (f j) := by
  unfold hornerM
  rw [of_hornerLoop, Finset.sum_range_succ, add_comm]
  rfl

theorem of_etaLoop (N : ℕ) (coeff : ℕ → M2 A) (k i : ℕ) (t : T A) :
    b.of (etaLoopM N coeff e δ k i t).t = b.of t.t + ∑ j ∈ Finset.range k, b.of (coeff (i + j)) * e (i + j) := by
  induction k generalizing i t with
  | zero => simp [etaLoopM]
  | succ k ih =>
    rw [etaLoopM, ih, b.add, b.smul, Finset.sum_range_succ', add_zero, add_assoc, add_comm (b.of (coeff i) * e i)]
    congr 2
    refine Finset.sum_congr rfl (fun j _ => ?_)
    rw [show i + 1 + j = i + (j + 1) by omega]

set_option maxRecDepth 100000 in
theorem tDelta_shape : tDelta.length = 5 ∧ tDelta.all (fun r => Nat.ble r.length 10) = true ∧ tH.length = 6 := by decide +kernel

theorem row_len {r : List MEntry4} (hr : r ∈ tDelta) : r.length ≤ 10 := Nat.ble_eq.mp (List.all_eq_true.mp tDelta_shape.2.1 r hr)

/-- A block of the body with the table of partial steps. -/
theorem of_bodyD (VEd : A) :
    b.of (bodyM MFormulas.etaDelta (fun i => hornerM (coeffD q v h i) δ MFormulas.hmaxDelta) e VEd δ).t = b.of ⟨0, 0, e 1 * VEd, 0⟩ + evc q v e h δ (rowsF b.sel 0 tDelta) := by
  unfold bodyM
  rw [of_etaLoop, evc_rows q v e h δ b.sel 0 tDelta 10 (fun r hr => row_len hr), tDelta_shape.1]
  congr 1
  refine Finset.sum_congr rfl (fun i _ => ?_)
  simp only [zero_add]
  congr 1
  show b.of (hornerM (coeffD q v h i) δ (9 + 1)) = _
  rw [of_horner]
  exact Finset.sum_congr rfl (fun j _ => by rw [of_coeffD])

/-- A block of the body with the table of full steps. -/
theorem of_bodyH (VEd : A) :
    b.of (bodyM MFormulas.etaH (coeffH q v h) e VEd δ).t = b.of ⟨0, 0, e 1 * VEd, 0⟩ + evc q v e h δ (hF b.sel 0 tH) := by
  unfold bodyM
  rw [of_etaLoop, evc_h, tDelta_shape.2.2]
  congr 1
  refine Finset.sum_congr rfl (fun i _ => ?_)
  simp only [zero_add]
  rw [of_coeffH]

end

/-! ### The change of basis -/
section conj
variable {K : Type} [Field K] {n : ℕ} {Q : Mat n K} (hQ : Q.transpose * Q = 1)

include hQ in
theorem conj_mul (x y : Mat n K) : Q * (x * y) * Q.transpose = (Q * x * Q.transpose) * (Q * y * Q.transpose) := by
  have : (Q * x * Q.transpose) * (Q * y * Q.transpose) = Q * x * (Q.transpose * Q) * (y * Q.transpose) := by simp only [Matrix.mul_assoc]
  rw [this, hQ, Matrix.mul_one]
  simp only [Matrix.mul_assoc]

include hQ in
theorem conj_word (v : ℕ → Mat n K) (l : List ℕ) : Q * word v l * Q.transpose = word (fun k => Q * v k * Q.transpose) l := by
  induction l with
  | nil => rw [word, word, Matrix.mul_one]; exact mul_eq_one_comm.mp hQ
  | cons k l ih => rw [word, word, ← ih, conj_mul hQ]

include hQ in
theorem conj_evc (q : MTerm → K) (v e : ℕ → Mat n K) (h δ : K) (l : List FT) :
    Q * evc q v e h δ l * Q.transpose = evc q (fun k => Q * v k * Q.transpose) (fun k => Q * e k * Q.transpose) h δ l := by
  induction l with
  | nil => simp [evc]
  | cons f l ih =>
    rw [evc, evc, Matrix.mul_add, Matrix.add_mul, ih, FT.val, FT.val, Matrix.mul_smul, Matrix.smul_mul, conj_mul hQ, conj_word hQ]

end conj
end Verif.NP
