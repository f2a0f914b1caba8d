import Verif.Lemmas.FormulaFacts
import Verif.Lemmas.ExtKernelA
import Verif.Lemmas.ExtKernelB
import Verif.Lemmas.ExtKernelH
import Verif.Lemmas.CalcT

/-! # The table `tH` and its certificate -/
namespace Verif.PL
open Verif.Formulas Verif.Legendre Verif.Eta
open scoped BigOperators

theorem ex_end {l : List PL} {i : ℕ} (hi : l.length ≤ i) : ex l i = [] := by
  unfold ex
  rw [List.getD_eq_getElem?_getD, List.getElem?_eq_none hi]
  rfl

theorem ext_cert_ac : Cert 15 20 11 1 (ex extA) (ex extC) where
  n_pos := by norm_num
  a_end := ⟨ex_end (by rw [extA_length]), ex_end (by rw [extA_length]; norm_num)⟩
  c_end := ex_end (by rw [extC_length])
  a_zero v h s := by rw [ext_a0]; simp [eval, Mon.mon, prodV, D]
  r1 i hi := all_range ext1_ac hi
  r10 := exact_zero ext0_ac
  r2 i hi := all_range ext2_ac hi
  g1 i hi l hl := by
    have := all_range ext_good_ac hi
    simp only [Bool.and_eq_true, List.all_eq_true] at this
    exact good_spec (this.1.1.1.1 l hl)
  g2 i hi l hl := by
    have := all_range ext_good_ac hi
    simp only [Bool.and_eq_true, List.all_eq_true] at this
    exact good_spec (this.1.1.1.2 l hl)
  g3 i hi := by
    have := all_range ext_good_ac hi
    simp only [Bool.and_eq_true, List.all_eq_true] at this
    exact good_spec this.1.1.2

theorem ext_cert_bd : Cert 15 20 11 0 (ex extB) (ex extD) where
  n_pos := by norm_num
  a_end := ⟨ex_end (by rw [extB_length]), ex_end (by rw [extB_length]; norm_num)⟩
  c_end := ex_end (by rw [extD_length])
  a_zero v h s := by rw [ext_b0]; simp [eval]
  r1 i hi := all_range ext1_bd hi
  r10 := exact_zero ext0_bd
  r2 i hi := all_range ext2_bd hi
  g1 i hi l hl := by
    have := all_range ext_good_bd hi
    simp only [Bool.and_eq_true, List.all_eq_true] at this
    exact good_spec (this.1.1.1.1 l hl)
  g2 i hi l hl := by
    have := all_range ext_good_bd hi
    simp only [Bool.and_eq_true, List.all_eq_true] at this
    exact good_spec (this.1.1.1.2 l hl)
  g3 i hi := by
    have := all_range ext_good_bd hi
    simp only [Bool.and_eq_true, List.all_eq_true] at this
    exact good_spec this.1.1.2

theorem Good_nil (p : ℕ) : Good p [] := fun m hm => by simp at hm

theorem ext_good_rows (i : ℕ) : (i = 0 ∨ Good 1 (ex extA i)) ∧ Good 1 (ex extB i) ∧ Good 1 (ex extC i) ∧
    (i = 0 ∨ Good 1 (ex extD i)) := by
  by_cases hi : i < 11
  · have h1 := all_range ext_good_ac hi
    have h2 := all_range ext_good_bd hi
    simp only [Bool.and_eq_true, Bool.or_eq_true, beq_iff_eq] at h1 h2
    exact ⟨h1.1.2.imp id good_spec, good_spec h2.1.2, good_spec h1.2, h2.2.imp id good_spec⟩
  · refine ⟨Or.inr ?_, ?_, ?_, Or.inr ?_⟩
    · rw [ex_end (by rw [extA_length]; omega)]; exact Good_nil 1
    · rw [ex_end (by rw [extB_length]; omega)]; exact Good_nil 1
    · rw [ex_end (by rw [extC_length]; omega)]; exact Good_nil 1
    · rw [ex_end (by rw [extD_length]; omega)]; exact Good_nil 1

theorem ext_cert2 : Cert2 15 20 11 (ex extA) (ex extB) (ex extC) (ex extD) where
  ac := ext_cert_ac
  bd := ext_cert_bd
  a0 i := by
    rcases (ext_good_rows i).1 with rfl | h
    · rw [ext_a0]; exact good_spec (by decide)
    · exact h.weaken
  b0 i := (ext_good_rows i).2.1.weaken
  ia := Uf_one_of_good ext_a0 (fun i => (ext_good_rows i).1)
  ib := Uf_zero_of_good (fun i => (ext_good_rows i).2.1)
  ic := Uf_zero_of_good (fun i => (ext_good_rows i).2.2.1)
  id := Uf_one_of_good ext_d0 (fun i => (ext_good_rows i).2.2.2)

/-! ### `tH` -/

theorem evalAll_singles (v : ℕ → ℝ) (h s : ℝ) (l : PL) : evalAll v h s (singles l) = eval v h s l := by
  induction l with
  | nil => rfl
  | cons m l ih =>
    have : singles (m :: l) = [m] :: singles l := rfl
    rw [this, evalAll, ih]; simp [eval]

theorem eval_atOne (v : ℕ → ℝ) (h : ℝ) (l : PL) : eval v h 1 (atOne l) = eval v h 1 l := by
  induction l with
  | nil => rfl
  | cons m l ih =>
    have : atOne (m :: l) = ⟨vkey m.vs + keyH * m.ord, m.ord, 0, m.vs, m.c⟩ :: atOne l := rfl
    rw [this]; simp only [eval, ih, Mon.mon, one_pow]

theorem evalAll_hdiff (sel : Entry4 → Entry) (x : List PL) (i : ℕ) (v : ℕ → ℝ) (h : ℝ) :
    evalAll v h 1 (hdiff sel x i) = eval v h 1 (hp sel i) - eval v h 1 (ex x i) := by
  unfold hdiff
  rw [evalAll_append, evalAll_singles, evalAll_singles, eval_scale, eval_atOne]; push_cast; ring

theorem good0_of {l : PL} (h : ∀ m ∈ l, ∀ k ∈ m.vs, 1 ≤ k) : Good 0 l := fun m hm => ⟨Or.inl (Nat.zero_le _), h m hm⟩

theorem Good.hdiff {sel : Entry4 → Entry} {x : List PL} {i : ℕ} (h1 : Good 0 (hp sel i)) (h2 : Good 0 (ex x i)) :
    ∀ l ∈ hdiff sel x i, Good 0 l := by
  intro l hl
  unfold PL.hdiff singles at hl
  rcases List.mem_append.mp hl with hl | hl
  · obtain ⟨m, hm, rfl⟩ := List.mem_map.mp hl
    intro m' hm'
    rw [List.mem_singleton] at hm'; subst hm'
    exact h1 _ hm
  · obtain ⟨m, hm, rfl⟩ := List.mem_map.mp hl
    intro m' hm'
    rw [List.mem_singleton] at hm'; subst hm'
    unfold scale atOne at hm
    obtain ⟨m1, hm1, rfl⟩ := List.mem_map.mp hm
    obtain ⟨m2, hm2, rfl⟩ := List.mem_map.mp hm1
    exact ⟨Or.inl (Nat.zero_le _), (h2 _ hm2).2⟩

theorem hp_end (sel : Entry4 → Entry) {i : ℕ} (hi : 10 ≤ i) : hp sel i = [] := by
  unfold hp
  rw [List.drop_eq_nil_of_le (by rw [tH_length]; exact hi)]

theorem hp_good (p : CalcT.Cp) (i : ℕ) : Good 0 (hp p.sel i) := by
  by_cases hi : i < 10
  · have := all_range tH_good hi
    simp only [Bool.and_eq_true] at this
    cases p
    · exact good_spec this.1.1.1
    · exact good_spec this.1.1.2
    · exact good_spec this.1.2
    · exact good_spec this.2
  · rw [hp_end _ (by omega)]; exact Good_nil 0

/-- the certificate table of a component -/
def extT : CalcT.Cp → List PL
  | .a => extA | .b => extB | .c => extC | .d => extD

theorem ext_good (p : CalcT.Cp) (i : ℕ) : Good 0 (ex (extT p) i) := by
  cases p
  · exact ext_cert2.a0 i
  · exact ext_cert2.b0 i
  · exact (ext_good_rows i).2.2.1.weaken
  · rcases (ext_good_rows i).2.2.2 with rfl | h
    · simp only [extT]; rw [ext_d0]; exact good_spec (by decide)
    · exact h.weaken

theorem chkH (p : CalcT.Cp) {i : ℕ} (hi : i < 11) : cancels 19 (hdiff p.sel (extT p) i) = true := by
  cases p
  · exact all_range chkH_a hi
  · exact all_range chkH_b hi
  · exact all_range chkH_c hi
  · exact all_range chkH_d hi

/-- constant of the difference between `tH` and the certificate -/
noncomputable def BH (p : CalcT.Cp) (M : ℝ) : ℝ :=
  ∑ i ∈ Finset.range 11, bndAll M ((hdiff p.sel (extT p) i).map (high 19)) * Real.exp M

theorem BH_nonneg (p : CalcT.Cp) {M : ℝ} (hM : 0 ≤ M) : 0 ≤ BH p M :=
  Finset.sum_nonneg (fun _ _ => mul_nonneg (bndAll_nonneg hM _) (Real.exp_pos _).le)

/-- The values from `tH` differ from those of the certificate by `O(h^19)`. -/
theorem tH_close (p : CalcT.Cp) {v : ℕ → ℝ} {M : ℝ} (hM : 1 ≤ M) (hv : ∀ k, 1 ≤ k → |v k| ≤ M) {h Z0 : ℝ} (h0 : 0 < h) (h1 : h ≤ 1)
    (hZ : |Z0| ≤ M) :
    |∑ i ∈ Finset.range 10, eval v h 1 (hp p.sel i) * eta i (Z0 * h ^ 2) - Uf 11 (ex (extT p)) v h Z0 h| ≤ BH p M * h ^ 19 := by
  have e1 : ∑ i ∈ Finset.range 10, eval v h 1 (hp p.sel i) * eta i (Z0 * h ^ 2) =
      ∑ i ∈ Finset.range 11, eval v h 1 (hp p.sel i) * eta i (Z0 * h ^ 2) := by
    rw [Finset.sum_range_succ _ 10, hp_end _ (le_refl 10)]; simp [eval]
  rw [e1, Uf, div_self h0.ne', ← Finset.sum_sub_distrib, BH, Finset.sum_mul]
  refine (Finset.abs_sum_le_sum_abs _ _).trans (Finset.sum_le_sum (fun i hi => ?_))
  rw [Finset.mem_range] at hi
  rw [← sub_mul, ← evalAll_hdiff, eval_of_cancels v h 1 (chkH p hi), abs_mul]
  have b1 := evalAll_bound hM hv h0.le h1 zero_le_one le_rfl (N := 19) (p := 0) ((hdiff p.sel (extT p) i).map (high 19))
    (fun l hl => by obtain ⟨l, _, rfl⟩ := List.mem_map.mp hl; exact high_ord 19 l)
    (fun l hl => by
      obtain ⟨l, hl', rfl⟩ := List.mem_map.mp hl
      exact (Good.hdiff (hp_good p i) (ext_good p i) l hl').high 19)
  have b2 := abs_etaZ_le hZ h0.le h1 i
  simp only [one_pow, mul_one] at b1
  calc _ ≤ bndAll M ((hdiff p.sel (extT p) i).map (high 19)) * h ^ 19 * Real.exp M :=
        mul_le_mul b1 b2 (abs_nonneg _) (mul_nonneg (bndAll_nonneg (by linarith) _) (by positivity))
    _ = _ := by ring

end Verif.PL

namespace Verif.CalcT
open Verif.YT Verif.Formulas Verif.PL
open scoped BigOperators

theorem hp_ok (p : Cp) (i : ℕ) (e : Entry4) (l : List Entry4) (h : tH.drop i = e :: l) : okEntry (p.sel e) = true := by
  have hm : e ∈ tH := List.mem_of_mem_drop (by rw [h]; exact List.mem_cons_self : e ∈ tH.drop i)
  have := List.all_eq_true.mp tH_ok e hm
  simp only [Bool.and_eq_true] at this
  cases p
  · exact this.1.1.1
  · exact this.1.1.2
  · exact this.1.2
  · exact this.2

theorem coeffH_of (p : Cp) (h : ℝ) (v : ℕ → ℝ) (i : ℕ) :
    p.of ((mkSec h v).coeffH i) = eval v h 1 (hp p.sel i) / D := by
  have hD : (D : ℝ) ≠ 0 := by unfold D; norm_num
  unfold mkSec hp
  dsimp only
  cases hd : tH.drop i with
  | nil => simp [eval, of_zero]
  | cons e l =>
    simp only
    rw [eval_entryPL v h 1 0 0 _ (hp_ok p i e l hd)]
    simp only [Nat.add_zero, pow_zero, one_pow, mul_one]
    rw [mul_div_assoc, mul_div_cancel₀ _ hD]
    cases p <;> rfl

theorem calcH_of (p : Cp) (eta : ℕ → ℝ → ℕ → ℝ) (h : ℝ) (v : ℕ → ℝ) (E : ℝ) :
    p.of (calcH eta (mkSec h v) E).t =
      (match p with | .c => (v 0 - E) * h * eta 10 ((v 0 - E) * (h * h)) 1 | _ => 0) +
      ∑ i ∈ Finset.range 10, eval v h 1 (hp p.sel i) / D * eta 10 ((v 0 - E) * (h * h)) i := by
  unfold calcH
  rw [body_t]
  simp only [coeffH_of]
  rfl

end Verif.CalcT
