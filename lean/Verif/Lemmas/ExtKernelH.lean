import Verif.Lemmas.ExtKernelB
import Verif.Lemmas.ExtA
import Verif.Lemmas.ExtB
import Verif.Lemmas.ExtC
import Verif.Lemmas.ExtD

/-! # The table `tH` agrees with the certificate at `δ = h`: checks evaluated by the kernel -/
namespace Verif.PL
open Verif.Formulas
set_option maxRecDepth 1000000
set_option Elab.async false

/-- The polynomial in `h` of an entry of `tH[i]`. -/
def hp (sel : Entry4 → Entry) (i : Nat) : PL :=
  match tH.drop i with
  | [] => []
  | e :: _ => entryPL 0 0 (sel e)

/-- The list for `s = 1`. -/
def atOne (l : PL) : PL := l.map (fun m => ⟨vkey m.vs + keyH * m.ord, m.ord, 0, m.vs, m.c⟩)

/-- every monomial as a list (to be sorted by merging) -/
def singles (l : PL) : List PL := l.map (fun m => [m])

/-- `tH[i] - ext_i(δ = h)` -/
def hdiff (sel : Entry4 → Entry) (x : List PL) (i : Nat) : List PL :=
  singles (hp sel i) ++ singles (scale (-1) (atOne (ex x i)))

theorem chkH_a_0 : cancels 19 (hdiff Entry4.a extA 0) = true := by decide +kernel
theorem chkH_a_1 : cancels 19 (hdiff Entry4.a extA 1) = true := by decide +kernel
theorem chkH_a_2 : cancels 19 (hdiff Entry4.a extA 2) = true := by decide +kernel
theorem chkH_a_3 : cancels 19 (hdiff Entry4.a extA 3) = true := by decide +kernel
theorem chkH_a_4 : cancels 19 (hdiff Entry4.a extA 4) = true := by decide +kernel
theorem chkH_a_5 : cancels 19 (hdiff Entry4.a extA 5) = true := by decide +kernel
theorem chkH_a_6 : cancels 19 (hdiff Entry4.a extA 6) = true := by decide +kernel
theorem chkH_a_7 : cancels 19 (hdiff Entry4.a extA 7) = true := by decide +kernel
theorem chkH_a_8 : cancels 19 (hdiff Entry4.a extA 8) = true := by decide +kernel
theorem chkH_a_9 : cancels 19 (hdiff Entry4.a extA 9) = true := by decide +kernel
theorem chkH_a_10 : cancels 19 (hdiff Entry4.a extA 10) = true := by decide +kernel
theorem chkH_a : (List.range 11).all (fun i => cancels 19 (hdiff Entry4.a extA i)) = true := by
  rw [List.all_eq_true]
  intro i hi
  rw [List.mem_range] at hi
  exact match i, hi with
    | 0, _ => chkH_a_0
    | 1, _ => chkH_a_1
    | 2, _ => chkH_a_2
    | 3, _ => chkH_a_3
    | 4, _ => chkH_a_4
    | 5, _ => chkH_a_5
    | 6, _ => chkH_a_6
    | 7, _ => chkH_a_7
    | 8, _ => chkH_a_8
    | 9, _ => chkH_a_9
    | 10, _ => chkH_a_10
theorem chkH_b_0 : cancels 19 (hdiff Entry4.b extB 0) = true := by decide +kernel
theorem chkH_b_1 : cancels 19 (hdiff Entry4.b extB 1) = true := by decide +kernel
theorem chkH_b_2 : cancels 19 (hdiff Entry4.b extB 2) = true := by decide +kernel
theorem chkH_b_3 : cancels 19 (hdiff Entry4.b extB 3) = true := by decide +kernel
theorem chkH_b_4 : cancels 19 (hdiff Entry4.b extB 4) = true := by decide +kernel
theorem chkH_b_5 : cancels 19 (hdiff Entry4.b extB 5) = true := by decide +kernel
theorem chkH_b_6 : cancels 19 (hdiff Entry4.b extB 6) = true := by decide +kernel
theorem chkH_b_7 : cancels 19 (hdiff Entry4.b extB 7) = true := by decide +kernel
theorem chkH_b_8 : cancels 19 (hdiff Entry4.b extB 8) = true := by decide +kernel
theorem chkH_b_9 : cancels 19 (hdiff Entry4.b extB 9) = true := by decide +kernel
theorem chkH_b_10 : cancels 19 (hdiff Entry4.b extB 10) = true := by decide +kernel
theorem chkH_b : (List.range 11).all (fun i => cancels 19 (hdiff Entry4.b extB i)) = true := by
  rw [List.all_eq_true]
  intro i hi
  rw [List.mem_range] at hi
  exact match i, hi with
    | 0, _ => chkH_b_0
    | 1, _ => chkH_b_1
    | 2, _ => chkH_b_2
    | 3, _ => chkH_b_3
    | 4, _ => chkH_b_4
    | 5, _ => chkH_b_5
    | 6, _ => chkH_b_6
    | 7, _ => chkH_b_7
    | 8, _ => chkH_b_8
    | 9, _ => chkH_b_9
    | 10, _ => chkH_b_10
theorem chkH_c_0 : cancels 19 (hdiff Entry4.c extC 0) = true := by decide +kernel
theorem chkH_c_1 : cancels 19 (hdiff Entry4.c extC 1) = true := by decide +kernel
theorem chkH_c_2 : cancels 19 (hdiff Entry4.c extC 2) = true := by decide +kernel
theorem chkH_c_3 : cancels 19 (hdiff Entry4.c extC 3) = true := by decide +kernel
theorem chkH_c_4 : cancels 19 (hdiff Entry4.c extC 4) = true := by decide +kernel
theorem chkH_c_5 : cancels 19 (hdiff Entry4.c extC 5) = true := by decide +kernel
theorem chkH_c_6 : cancels 19 (hdiff Entry4.c extC 6) = true := by decide +kernel
theorem chkH_c_7 : cancels 19 (hdiff Entry4.c extC 7) = true := by decide +kernel
theorem chkH_c_8 : cancels 19 (hdiff Entry4.c extC 8) = true := by decide +kernel
theorem chkH_c_9 : cancels 19 (hdiff Entry4.c extC 9) = true := by decide +kernel
theorem chkH_c_10 : cancels 19 (hdiff Entry4.c extC 10) = true := by decide +kernel
theorem chkH_c : (List.range 11).all (fun i => cancels 19 (hdiff Entry4.c extC i)) = true := by
  rw [List.all_eq_true]
  intro i hi
  rw [List.mem_range] at hi
  exact match i, hi with
    | 0, _ => chkH_c_0
    | 1, _ => chkH_c_1
    | 2, _ => chkH_c_2
    | 3, _ => chkH_c_3
    | 4, _ => chkH_c_4
    | 5, _ => chkH_c_5
    | 6, _ => chkH_c_6
    | 7, _ => chkH_c_7
    | 8, _ => chkH_c_8
    | 9, _ => chkH_c_9
    | 10, _ => chkH_c_10
theorem chkH_d_0 : cancels 19 (hdiff Entry4.d extD 0) = true := by decide +kernel
theorem chkH_d_1 : cancels 19 (hdiff Entry4.d extD 1) = true := by decide +kernel
theorem chkH_d_2 : cancels 19 (hdiff Entry4.d extD 2) = true := by decide +kernel
theorem chkH_d_3 : cancels 19 (hdiff Entry4.d extD 3) = true := by decide +kernel
theorem chkH_d_4 : cancels 19 (hdiff Entry4.d extD 4) = true := by decide +kernel
theorem chkH_d_5 : cancels 19 (hdiff Entry4.d extD 5) = true := by decide +kernel
theorem chkH_d_6 : cancels 19 (hdiff Entry4.d extD 6) = true := by decide +kernel
theorem chkH_d_7 : cancels 19 (hdiff Entry4.d extD 7) = true := by decide +kernel
theorem chkH_d_8 : cancels 19 (hdiff Entry4.d extD 8) = true := by decide +kernel
theorem chkH_d_9 : cancels 19 (hdiff Entry4.d extD 9) = true := by decide +kernel
theorem chkH_d_10 : cancels 19 (hdiff Entry4.d extD 10) = true := by decide +kernel
theorem chkH_d : (List.range 11).all (fun i => cancels 19 (hdiff Entry4.d extD i)) = true := by
  rw [List.all_eq_true]
  intro i hi
  rw [List.mem_range] at hi
  exact match i, hi with
    | 0, _ => chkH_d_0
    | 1, _ => chkH_d_1
    | 2, _ => chkH_d_2
    | 3, _ => chkH_d_3
    | 4, _ => chkH_d_4
    | 5, _ => chkH_d_5
    | 6, _ => chkH_d_6
    | 7, _ => chkH_d_7
    | 8, _ => chkH_d_8
    | 9, _ => chkH_d_9
    | 10, _ => chkH_d_10
theorem tH_length : tH.length = 10 := by decide +kernel
theorem tH_ok : tH.all (fun r => okEntry r.a && okEntry r.b && okEntry r.c && okEntry r.d) = true := by decide +kernel
theorem tH_good : (List.range 10).all (fun i => good 0 (hp Entry4.a i) && good 0 (hp Entry4.b i) && good 0 (hp Entry4.c i) &&
    good 0 (hp Entry4.d i)) = true := by decide +kernel

end Verif.PL
