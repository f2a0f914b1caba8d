import Verif.Lemmas.FormulaCheck

/-!
# The formula tables `tDelta` are certified

The `decide +kernel` proofs below evaluate the polynomial identities on the complete tables (all rows, all
terms, exact rational coefficients); they are identities of polynomials, hence hold for all values of the
variables.
-/
namespace Verif.PL
open Verif.Formulas Verif.Legendre
set_option maxRecDepth 1000000
set_option Elab.async false

theorem chk1_ac_0 : check1 17 (rp Entry4.a) (rp Entry4.c) 0 = true := by decide +kernel
theorem chk1_ac_1 : check1 17 (rp Entry4.a) (rp Entry4.c) 1 = true := by decide +kernel
theorem chk1_ac_2 : check1 17 (rp Entry4.a) (rp Entry4.c) 2 = true := by decide +kernel
theorem chk1_ac_3 : check1 17 (rp Entry4.a) (rp Entry4.c) 3 = true := by decide +kernel
theorem chk1_ac_4 : check1 17 (rp Entry4.a) (rp Entry4.c) 4 = true := by decide +kernel
theorem chk1_ac_5 : check1 17 (rp Entry4.a) (rp Entry4.c) 5 = true := by decide +kernel
theorem chk1_ac_6 : check1 17 (rp Entry4.a) (rp Entry4.c) 6 = true := by decide +kernel
theorem chk1_ac_7 : check1 17 (rp Entry4.a) (rp Entry4.c) 7 = true := by decide +kernel
theorem chk1_ac_8 : check1 17 (rp Entry4.a) (rp Entry4.c) 8 = true := by decide +kernel
theorem chk1_ac : (List.range 9).all (fun i => check1 17 (rp Entry4.a) (rp Entry4.c) i) = true := by
  rw [List.all_eq_true]
  intro i hi
  rw [List.mem_range] at hi
  exact match i, hi with
    | 0, _ => chk1_ac_0
    | 1, _ => chk1_ac_1
    | 2, _ => chk1_ac_2
    | 3, _ => chk1_ac_3
    | 4, _ => chk1_ac_4
    | 5, _ => chk1_ac_5
    | 6, _ => chk1_ac_6
    | 7, _ => chk1_ac_7
    | 8, _ => chk1_ac_8
theorem chk1_bd_0 : check1 17 (rp Entry4.b) (rp Entry4.d) 0 = true := by decide +kernel
theorem chk1_bd_1 : check1 17 (rp Entry4.b) (rp Entry4.d) 1 = true := by decide +kernel
theorem chk1_bd_2 : check1 17 (rp Entry4.b) (rp Entry4.d) 2 = true := by decide +kernel
theorem chk1_bd_3 : check1 17 (rp Entry4.b) (rp Entry4.d) 3 = true := by decide +kernel
theorem chk1_bd_4 : check1 17 (rp Entry4.b) (rp Entry4.d) 4 = true := by decide +kernel
theorem chk1_bd_5 : check1 17 (rp Entry4.b) (rp Entry4.d) 5 = true := by decide +kernel
theorem chk1_bd_6 : check1 17 (rp Entry4.b) (rp Entry4.d) 6 = true := by decide +kernel
theorem chk1_bd_7 : check1 17 (rp Entry4.b) (rp Entry4.d) 7 = true := by decide +kernel
theorem chk1_bd_8 : check1 17 (rp Entry4.b) (rp Entry4.d) 8 = true := by decide +kernel
theorem chk1_bd : (List.range 9).all (fun i => check1 17 (rp Entry4.b) (rp Entry4.d) i) = true := by
  rw [List.all_eq_true]
  intro i hi
  rw [List.mem_range] at hi
  exact match i, hi with
    | 0, _ => chk1_bd_0
    | 1, _ => chk1_bd_1
    | 2, _ => chk1_bd_2
    | 3, _ => chk1_bd_3
    | 4, _ => chk1_bd_4
    | 5, _ => chk1_bd_5
    | 6, _ => chk1_bd_6
    | 7, _ => chk1_bd_7
    | 8, _ => chk1_bd_8
theorem chk2_ac_0 : check2 13 17 (rp Entry4.a) (rp Entry4.c) 0 = true := by decide +kernel
theorem chk2_ac_1 : check2 13 17 (rp Entry4.a) (rp Entry4.c) 1 = true := by decide +kernel
theorem chk2_ac_2 : check2 13 17 (rp Entry4.a) (rp Entry4.c) 2 = true := by decide +kernel
theorem chk2_ac_3 : check2 13 17 (rp Entry4.a) (rp Entry4.c) 3 = true := by decide +kernel
theorem chk2_ac_4 : check2 13 17 (rp Entry4.a) (rp Entry4.c) 4 = true := by decide +kernel
theorem chk2_ac_5 : check2 13 17 (rp Entry4.a) (rp Entry4.c) 5 = true := by decide +kernel
theorem chk2_ac_6 : check2 13 17 (rp Entry4.a) (rp Entry4.c) 6 = true := by decide +kernel
theorem chk2_ac_7 : check2 13 17 (rp Entry4.a) (rp Entry4.c) 7 = true := by decide +kernel
theorem chk2_ac_8 : check2 13 17 (rp Entry4.a) (rp Entry4.c) 8 = true := by decide +kernel
theorem chk2_ac : (List.range 9).all (fun i => check2 13 17 (rp Entry4.a) (rp Entry4.c) i) = true := by
  rw [List.all_eq_true]
  intro i hi
  rw [List.mem_range] at hi
  exact match i, hi with
    | 0, _ => chk2_ac_0
    | 1, _ => chk2_ac_1
    | 2, _ => chk2_ac_2
    | 3, _ => chk2_ac_3
    | 4, _ => chk2_ac_4
    | 5, _ => chk2_ac_5
    | 6, _ => chk2_ac_6
    | 7, _ => chk2_ac_7
    | 8, _ => chk2_ac_8
theorem chk2_bd_0 : check2 13 17 (rp Entry4.b) (rp Entry4.d) 0 = true := by decide +kernel
theorem chk2_bd_1 : check2 13 17 (rp Entry4.b) (rp Entry4.d) 1 = true := by decide +kernel
theorem chk2_bd_2 : check2 13 17 (rp Entry4.b) (rp Entry4.d) 2 = true := by decide +kernel
theorem chk2_bd_3 : check2 13 17 (rp Entry4.b) (rp Entry4.d) 3 = true := by decide +kernel
theorem chk2_bd_4 : check2 13 17 (rp Entry4.b) (rp Entry4.d) 4 = true := by decide +kernel
theorem chk2_bd_5 : check2 13 17 (rp Entry4.b) (rp Entry4.d) 5 = true := by decide +kernel
theorem chk2_bd_6 : check2 13 17 (rp Entry4.b) (rp Entry4.d) 6 = true := by decide +kernel
theorem chk2_bd_7 : check2 13 17 (rp Entry4.b) (rp Entry4.d) 7 = true := by decide +kernel
theorem chk2_bd_8 : check2 13 17 (rp Entry4.b) (rp Entry4.d) 8 = true := by decide +kernel
theorem chk2_bd : (List.range 9).all (fun i => check2 13 17 (rp Entry4.b) (rp Entry4.d) i) = true := by
  rw [List.all_eq_true]
  intro i hi
  rw [List.mem_range] at hi
  exact match i, hi with
    | 0, _ => chk2_bd_0
    | 1, _ => chk2_bd_1
    | 2, _ => chk2_bd_2
    | 3, _ => chk2_bd_3
    | 4, _ => chk2_bd_4
    | 5, _ => chk2_bd_5
    | 6, _ => chk2_bd_6
    | 7, _ => chk2_bd_7
    | 8, _ => chk2_bd_8
theorem chk0_ac : check1 64 (rp Entry4.a) (rp Entry4.c) 0 = true ∧
    (rel1 (rp Entry4.a) (rp Entry4.c) 0).all (fun l => (high 64 l).isEmpty) = true := by decide +kernel
theorem chk0_bd : check1 64 (rp Entry4.b) (rp Entry4.d) 0 = true ∧
    (rel1 (rp Entry4.b) (rp Entry4.d) 0).all (fun l => (high 64 l).isEmpty) = true := by decide +kernel
theorem rp_a0 : rp Entry4.a 0 = [⟨0, 0, 0, [], 2075673600⟩] := by decide +kernel
theorem rp_b0 : rp Entry4.b 0 = [] := by decide +kernel
theorem rp_d0 : rp Entry4.d 0 = [⟨0, 0, 0, [], 2075673600⟩] := by decide +kernel
theorem tDelta_length : tDelta.length = 9 := by decide +kernel
theorem tDelta_widths : tDelta.all (fun r => Nat.ble r.length 17) = true := by decide +kernel
theorem tDelta_ok : tDelta.all (fun r => okRow Entry4.a r && okRow Entry4.b r && okRow Entry4.c r && okRow Entry4.d r) = true := by
  decide +kernel
theorem good_rel1 : (List.range 9).all (fun i => (rel1 (rp Entry4.a) (rp Entry4.c) i).all (good 1) &&
    (rel1 (rp Entry4.b) (rp Entry4.d) i).all (good 1)) = true := by decide +kernel
theorem good_rel2 : (List.range 9).all (fun i => (rel2 (rp Entry4.a) (rp Entry4.c) i).all (good 2) &&
    (rel2 (rp Entry4.b) (rp Entry4.d) i).all (good 2)) = true := by decide +kernel
theorem good_negDD : (List.range 9).all (fun i => good 2 (negDD (rp Entry4.a) i) && good 2 (negDD (rp Entry4.b) i)) = true := by
  decide +kernel
theorem good_rows : (List.range 9).all (fun i => (i == 0 || good 1 (rp Entry4.a i)) && good 1 (rp Entry4.b i) &&
    good 1 (rp Entry4.c i) && (i == 0 || good 1 (rp Entry4.d i))) = true := by decide +kernel

end Verif.PL
