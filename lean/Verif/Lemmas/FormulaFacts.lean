import Verif.Lemmas.CPMError
import Verif.Lemmas.FormulaKernel

/-! # The formula tables `tDelta` are certified -/
namespace Verif.PL
open Verif.Formulas Verif.Legendre Verif.Eta

theorem rp_end (sel : Entry4 → Entry) {i : ℕ} (hi : 9 ≤ i) : rp sel i = [] := by
  unfold rp tRow
  rw [List.getD_eq_getElem?_getD, List.getElem?_eq_none (by rw [tDelta_length]; exact hi)]
  rfl

theorem all_range {p : ℕ → Bool} {n : ℕ} (h : (List.range n).all p = true) {i : ℕ} (hi : i < n) : p i = true :=
  List.all_eq_true.mp h i (List.mem_range.mpr hi)

theorem exact_zero {a c : ℕ → PL} (h : check1 64 a c 0 = true ∧ (rel1 a c 0).all (fun l => (high 64 l).isEmpty) = true)
    (v : ℕ → ℝ) (h' s : ℝ) : evalAll v h' s (rel1 a c 0) = 0 := by
  rw [eval_of_cancels v h' s h.1]
  have : ∀ ls : List PL, ls.all (fun l => (high 64 l).isEmpty) = true → evalAll v h' s (ls.map (high 64)) = 0 := by
    intro ls
    induction ls with
    | nil => intro _; rfl
    | cons l ls ih =>
      intro h
      simp only [List.all_cons, Bool.and_eq_true] at h
      simp only [List.map_cons, evalAll, ih h.2]
      rw [List.isEmpty_iff.mp h.1]
      simp [eval]
  exact this _ h.2

theorem cert_ac : Cert 13 17 9 1 (rp Entry4.a) (rp Entry4.c) where
  n_pos := by norm_num
  a_end := ⟨rp_end _ (by norm_num), rp_end _ (by norm_num)⟩
  c_end := rp_end _ (by norm_num)
  a_zero v h s := by rw [rp_a0]; simp [eval, Mon.mon, prodV, D]
  r1 i hi := all_range chk1_ac hi
  r10 := exact_zero chk0_ac
  r2 i hi := all_range chk2_ac hi
  g1 i hi l hl := by
    have := all_range good_rel1 hi
    simp only [Bool.and_eq_true, List.all_eq_true] at this
    exact good_spec (this.1 l hl)
  g2 i hi l hl := by
    have := all_range good_rel2 hi
    simp only [Bool.and_eq_true, List.all_eq_true] at this
    exact good_spec (this.1 l hl)
  g3 i hi := by
    have := all_range good_negDD hi
    simp only [Bool.and_eq_true] at this
    exact good_spec this.1

theorem cert_bd : Cert 13 17 9 0 (rp Entry4.b) (rp Entry4.d) where
  n_pos := by norm_num
  a_end := ⟨rp_end _ (by norm_num), rp_end _ (by norm_num)⟩
  c_end := rp_end _ (by norm_num)
  a_zero v h s := by rw [rp_b0]; simp [eval]
  r1 i hi := all_range chk1_bd hi
  r10 := exact_zero chk0_bd
  r2 i hi := all_range chk2_bd hi
  g1 i hi l hl := by
    have := all_range good_rel1 hi
    simp only [Bool.and_eq_true, List.all_eq_true] at this
    exact good_spec (this.2 l hl)
  g2 i hi l hl := by
    have := all_range good_rel2 hi
    simp only [Bool.and_eq_true, List.all_eq_true] at this
    exact good_spec (this.2 l hl)
  g3 i hi := by
    have := all_range good_negDD hi
    simp only [Bool.and_eq_true] at this
    exact good_spec this.2

theorem Good.weaken {p : ℕ} {l : PL} (h : Good p l) : Good 0 l := fun m hm => ⟨Or.inl (Nat.zero_le _), (h m hm).2⟩

theorem eval_zero_of_good {l : PL} (h : Good 1 l) (v : ℕ → ℝ) (h' : ℝ) : eval v h' 0 l = 0 := by
  induction l with
  | nil => rfl
  | cons m l ih =>
    simp only [eval, ih (fun m hm => h m (List.mem_cons_of_mem _ hm)), add_zero]
    rcases (h m List.mem_cons_self).1 with hd | hd
    · simp only [Mon.mon]
      rw [zero_pow (by omega)]; ring
    · rw [hd]; simp

theorem good_row (i : ℕ) : (i = 0 ∨ Good 1 (rp Entry4.a i)) ∧ Good 1 (rp Entry4.b i) ∧ Good 1 (rp Entry4.c i) ∧
    (i = 0 ∨ Good 1 (rp Entry4.d i)) := by
  by_cases hi : i < 9
  · have := all_range good_rows hi
    simp only [Bool.and_eq_true, Bool.or_eq_true, beq_iff_eq] at this
    refine ⟨this.1.1.1.imp id good_spec, good_spec this.1.1.2, good_spec this.1.2, this.2.imp id good_spec⟩
  · have e : ∀ sel, Good 1 (rp sel i) := fun sel => by rw [rp_end sel (by omega)]; intro m hm; simp at hm
    exact ⟨Or.inr (e _), e _, e _, Or.inr (e _)⟩

theorem Uf_zero_of_good {n : ℕ} {a : ℕ → PL} (h : ∀ i, Good 1 (a i)) (v : ℕ → ℝ) (h' Z0 : ℝ) : Uf n a v h' Z0 0 = 0 := by
  unfold Uf
  refine Finset.sum_eq_zero (fun i _ => ?_)
  rw [zero_div, eval_zero_of_good (h i), zero_mul]

theorem eta0_zero : eta 0 0 = 1 := by rw [eta_zero_right]; simp [oddFact]

theorem Uf_one_of_good {n : ℕ} {a : ℕ → PL} (h0 : a 0 = [⟨0, 0, 0, [], 2075673600⟩]) (h : ∀ i, i = 0 ∨ Good 1 (a i)) (v : ℕ → ℝ) (h' Z0 : ℝ) :
    Uf (n + 1) a v h' Z0 0 = D := by
  unfold Uf
  rw [Finset.sum_range_succ', Finset.sum_eq_zero]
  · rw [h0, zero_pow (by norm_num), mul_zero, eta0_zero]; simp [eval, Mon.mon, prodV, D]
  · intro i _
    rw [zero_div, eval_zero_of_good ((h (i + 1)).resolve_left (by omega)), zero_mul]

theorem cert2 : Cert2 13 17 9 (rp Entry4.a) (rp Entry4.b) (rp Entry4.c) (rp Entry4.d) where
  ac := cert_ac
  bd := cert_bd
  a0 i := by
    rcases (good_row i).1 with rfl | h
    · rw [rp_a0]; exact good_spec (by decide)
    · exact h.weaken
  b0 i := (good_row i).2.1.weaken
  ia := Uf_one_of_good rp_a0 (fun i => (good_row i).1)
  ib := Uf_zero_of_good (fun i => (good_row i).2.1)
  ic := Uf_zero_of_good (fun i => (good_row i).2.2.1)
  id := Uf_one_of_good rp_d0 (fun i => (good_row i).2.2.2)

end Verif.PL
