import Verif.Lemmas.ExtA
import Verif.Lemmas.ExtC

/-! # The certificate for `tH`, first column: checks evaluated by the kernel -/
namespace Verif.PL
set_option maxRecDepth 1000000
set_option Elab.async false

theorem ext1_ac_0 : check1 20 (ex extA) (ex extC) 0 = true := by decide +kernel
theorem ext1_ac_1 : check1 20 (ex extA) (ex extC) 1 = true := by decide +kernel
theorem ext1_ac_2 : check1 20 (ex extA) (ex extC) 2 = true := by decide +kernel
theorem ext1_ac_3 : check1 20 (ex extA) (ex extC) 3 = true := by decide +kernel
theorem ext1_ac_4 : check1 20 (ex extA) (ex extC) 4 = true := by decide +kernel
theorem ext1_ac_5 : check1 20 (ex extA) (ex extC) 5 = true := by decide +kernel
theorem ext1_ac_6 : check1 20 (ex extA) (ex extC) 6 = true := by decide +kernel
theorem ext1_ac_7 : check1 20 (ex extA) (ex extC) 7 = true := by decide +kernel
theorem ext1_ac_8 : check1 20 (ex extA) (ex extC) 8 = true := by decide +kernel
theorem ext1_ac_9 : check1 20 (ex extA) (ex extC) 9 = true := by decide +kernel
theorem ext1_ac_10 : check1 20 (ex extA) (ex extC) 10 = true := by decide +kernel
theorem ext1_ac : (List.range 11).all (fun i => check1 20 (ex extA) (ex extC) i) = true := by
  rw [List.all_eq_true]
  intro i hi
  rw [List.mem_range] at hi
  exact match i, hi with
    | 0, _ => ext1_ac_0
    | 1, _ => ext1_ac_1
    | 2, _ => ext1_ac_2
    | 3, _ => ext1_ac_3
    | 4, _ => ext1_ac_4
    | 5, _ => ext1_ac_5
    | 6, _ => ext1_ac_6
    | 7, _ => ext1_ac_7
    | 8, _ => ext1_ac_8
    | 9, _ => ext1_ac_9
    | 10, _ => ext1_ac_10
theorem ext2_ac_0 : check2 15 20 (ex extA) (ex extC) 0 = true := by decide +kernel
theorem ext2_ac_1 : check2 15 20 (ex extA) (ex extC) 1 = true := by decide +kernel
theorem ext2_ac_2 : check2 15 20 (ex extA) (ex extC) 2 = true := by decide +kernel
theorem ext2_ac_3 : check2 15 20 (ex extA) (ex extC) 3 = true := by decide +kernel
theorem ext2_ac_4 : check2 15 20 (ex extA) (ex extC) 4 = true := by decide +kernel
theorem ext2_ac_5 : check2 15 20 (ex extA) (ex extC) 5 = true := by decide +kernel
theorem ext2_ac_6 : check2 15 20 (ex extA) (ex extC) 6 = true := by decide +kernel
theorem ext2_ac_7 : check2 15 20 (ex extA) (ex extC) 7 = true := by decide +kernel
theorem ext2_ac_8 : check2 15 20 (ex extA) (ex extC) 8 = true := by decide +kernel
theorem ext2_ac_9 : check2 15 20 (ex extA) (ex extC) 9 = true := by decide +kernel
theorem ext2_ac_10 : check2 15 20 (ex extA) (ex extC) 10 = true := by decide +kernel
theorem ext2_ac : (List.range 11).all (fun i => check2 15 20 (ex extA) (ex extC) i) = true := by
  rw [List.all_eq_true]
  intro i hi
  rw [List.mem_range] at hi
  exact match i, hi with
    | 0, _ => ext2_ac_0
    | 1, _ => ext2_ac_1
    | 2, _ => ext2_ac_2
    | 3, _ => ext2_ac_3
    | 4, _ => ext2_ac_4
    | 5, _ => ext2_ac_5
    | 6, _ => ext2_ac_6
    | 7, _ => ext2_ac_7
    | 8, _ => ext2_ac_8
    | 9, _ => ext2_ac_9
    | 10, _ => ext2_ac_10
theorem ext0_ac : check1 64 (ex extA) (ex extC) 0 = true ∧
    (rel1 (ex extA) (ex extC) 0).all (fun l => (high 64 l).isEmpty) = true := by decide +kernel
theorem ext_a0 : ex extA 0 = [⟨0, 0, 0, [], 2075673600⟩] := by decide +kernel
theorem extA_length : extA.length = 11 := by decide +kernel
theorem extC_length : extC.length = 11 := by decide +kernel
theorem ext_good_ac : (List.range 11).all (fun i => (rel1 (ex extA) (ex extC) i).all (good 1) &&
    (rel2 (ex extA) (ex extC) i).all (good 2) && good 2 (negDD (ex extA) i) &&
    (i == 0 || good 1 (ex extA i)) && good 1 (ex extC i)) = true := by decide +kernel
end Verif.PL
