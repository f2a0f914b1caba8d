import Verif.Lemmas.ExtKernelA
import Verif.Lemmas.ExtB
import Verif.Lemmas.ExtD
import Verif.Lemmas.FormulaCheck

/-! # The certificate for `tH`, second column: checks evaluated by the kernel -/
namespace Verif.PL
set_option maxRecDepth 1000000
set_option Elab.async false

theorem ext1_bd_0 : check1 20 (ex extB) (ex extD) 0 = true := by decide +kernel
theorem ext1_bd_1 : check1 20 (ex extB) (ex extD) 1 = true := by decide +kernel
theorem ext1_bd_2 : check1 20 (ex extB) (ex extD) 2 = true := by decide +kernel
theorem ext1_bd_3 : check1 20 (ex extB) (ex extD) 3 = true := by decide +kernel
theorem ext1_bd_4 : check1 20 (ex extB) (ex extD) 4 = true := by decide +kernel
theorem ext1_bd_5 : check1 20 (ex extB) (ex extD) 5 = true := by decide +kernel
theorem ext1_bd_6 : check1 20 (ex extB) (ex extD) 6 = true := by decide +kernel
theorem ext1_bd_7 : check1 20 (ex extB) (ex extD) 7 = true := by decide +kernel
theorem ext1_bd_8 : check1 20 (ex extB) (ex extD) 8 = true := by decide +kernel
theorem ext1_bd_9 : check1 20 (ex extB) (ex extD) 9 = true := by decide +kernel
theorem ext1_bd_10 : check1 20 (ex extB) (ex extD) 10 = true := by decide +kernel
theorem ext1_bd : (List.range 11).all (fun i => check1 20 (ex extB) (ex extD) i) = true := by
  rw [List.all_eq_true]
  intro i hi
  rw [List.mem_range] at hi
  exact match i, hi with
    | 0, _ => ext1_bd_0
    | 1, _ => ext1_bd_1
    | 2, _ => ext1_bd_2
    | 3, _ => ext1_bd_3
    | 4, _ => ext1_bd_4
    | 5, _ => ext1_bd_5
    | 6, _ => ext1_bd_6
    | 7, _ => ext1_bd_7
    | 8, _ => ext1_bd_8
    | 9, _ => ext1_bd_9
    | 10, _ => ext1_bd_10
theorem ext2_bd_0 : check2 15 20 (ex extB) (ex extD) 0 = true := by decide +kernel
theorem ext2_bd_1 : check2 15 20 (ex extB) (ex extD) 1 = true := by decide +kernel
theorem ext2_bd_2 : check2 15 20 (ex extB) (ex extD) 2 = true := by decide +kernel
theorem ext2_bd_3 : check2 15 20 (ex extB) (ex extD) 3 = true := by decide +kernel
theorem ext2_bd_4 : check2 15 20 (ex extB) (ex extD) 4 = true := by decide +kernel
theorem ext2_bd_5 : check2 15 20 (ex extB) (ex extD) 5 = true := by decide +kernel
theorem ext2_bd_6 : check2 15 20 (ex extB) (ex extD) 6 = true := by decide +kernel
theorem ext2_bd_7 : check2 15 20 (ex extB) (ex extD) 7 = true := by decide +kernel
theorem ext2_bd_8 : check2 15 20 (ex extB) (ex extD) 8 = true := by decide +kernel
theorem ext2_bd_9 : check2 15 20 (ex extB) (ex extD) 9 = true := by decide +kernel
theorem ext2_bd_10 : check2 15 20 (ex extB) (ex extD) 10 = true := by decide +kernel
theorem ext2_bd : (List.range 11).all (fun i => check2 15 20 (ex extB) (ex extD) i) = true := by
  rw [List.all_eq_true]
  intro i hi
  rw [List.mem_range] at hi
  exact match i, hi with
    | 0, _ => ext2_bd_0
    | 1, _ => ext2_bd_1
    | 2, _ => ext2_bd_2
    | 3, _ => ext2_bd_3
    | 4, _ => ext2_bd_4
    | 5, _ => ext2_bd_5
    | 6, _ => ext2_bd_6
    | 7, _ => ext2_bd_7
    | 8, _ => ext2_bd_8
    | 9, _ => ext2_bd_9
    | 10, _ => ext2_bd_10
theorem ext0_bd : check1 64 (ex extB) (ex extD) 0 = true ∧
    (rel1 (ex extB) (ex extD) 0).all (fun l => (high 64 l).isEmpty) = true := by decide +kernel
theorem ext_b0 : ex extB 0 = [] := by decide +kernel
theorem ext_d0 : ex extD 0 = [⟨0, 0, 0, [], 2075673600⟩] := by decide +kernel
theorem extB_length : extB.length = 11 := by decide +kernel
theorem extD_length : extD.length = 11 := by decide +kernel
theorem ext_good_bd : (List.range 11).all (fun i => (rel1 (ex extB) (ex extD) i).all (good 1) &&
    (rel2 (ex extB) (ex extD) i).all (good 2) && good 2 (negDD (ex extB) i) &&
    good 1 (ex extB i) && (i == 0 || good 1 (ex extD i))) = true := by decide +kernel
end Verif.PL
