import Verif.Lemmas.MatscsExt

/-!
# The identities between the formula tables of coupled systems, evaluated by the kernel
-/
namespace Verif.NP
open Verif.MFormulas

/-- The multiple of `1 / 40320` next to a literal. -/
def rnd (t : MTerm) : Int := (2 * t.num * LL + 10 ^ t.dec) / (2 * 10 ^ t.dec)

/-- The terms of a block, in row `i` with the power `δ^j`. -/
def entryNP (i j : Nat) (e : MEntry) : NP := e.flatMap (fun pt => pt.2.map (fun t => mk i j pt.1 t.w (rnd t)))

/-- The terms of a row of `tDelta`, from power `δ^j` on. -/
def rowNP (sel : MEntry4 → MEntry) (i : Nat) : Nat → List MEntry4 → NP
  | _, [] => []
  | j, e :: l => entryNP i j (sel e) ++ rowNP sel i (j + 1) l

/-- The terms of rows `i, i+1, …`. -/
def rowsNP (sel : MEntry4 → MEntry) : Nat → List (List MEntry4) → NP
  | _, [] => []
  | i, r :: l => rowNP sel i 0 r ++ rowsNP sel (i + 1) l

/-- The terms of `tDelta`. -/
def tD (sel : MEntry4 → MEntry) : NP := rowsNP sel 0 tDelta

/-- The terms of rows `i, i+1, …` of `tH`. -/
def hNP (sel : MEntry4 → MEntry) : Nat → List MEntry4 → NP
  | _, [] => []
  | i, e :: l => entryNP i 0 (sel e) ++ hNP sel (i + 1) l

/-- `δ D e_1`, the derivative of `e_0` -/
def kappa : NP := [mk 1 1 0 [9] LL]

def Ua : NP := tD MEntry4.a ++ extA
def Ub : NP := tD MEntry4.b ++ extB
def Uc : NP := kappa ++ (tD MEntry4.c ++ extC)
def Ud : NP := tD MEntry4.d ++ extD

/-- `δ = h` -/
def atH (l : NP) : NP := l.map (fun m => mk m.i 0 (m.j + m.p) m.w m.c)

set_option maxRecDepth 1000000

theorem res1_ac : cancels 9 (res1 Ua Uc) = true := by decide +kernel
theorem res1_bd : cancels 9 (res1 Ub Ud) = true := by decide +kernel
theorem res2_ac : cancels 9 (res2 Ua Uc) = true := by decide +kernel
theorem res2_bd : cancels 9 (res2 Ub Ud) = true := by decide +kernel

/-- all terms of a table of blocks -/
def terms4 (e : MEntry4) : List MTerm := (e.a ++ e.b ++ e.c ++ e.d).flatMap (fun pt => pt.2)

/-- all terms of the two tables -/
def allTerms : List MTerm := tDelta.flatten.flatMap terms4 ++ tH.flatMap terms4

/-- the literal is within `5·10⁻¹²` (relative) of the multiple of `1 / 40320` next to it -/
def litOk (t : MTerm) : Bool := decide (|t.num * LL - rnd t * 10 ^ t.dec| * 10 ^ 12 ≤ 5 * |rnd t| * 10 ^ t.dec)

theorem lits_ok : allTerms.all litOk = true := by decide +kernel

theorem h_a : cancels 10 (hNP MEntry4.a 0 tH ++ neg (atH Ua)) = true := by decide +kernel
theorem h_b : cancels 10 (hNP MEntry4.b 0 tH ++ neg (atH Ub)) = true := by decide +kernel
theorem h_c : cancels 10 (hNP MEntry4.c 0 tH ++ neg (atH (tD MEntry4.c ++ extC))) = true := by decide +kernel
theorem h_d : cancels 10 (hNP MEntry4.d 0 tH ++ neg (atH Ud)) = true := by decide +kernel

theorem okD_all : (Ua ++ Ub ++ Uc ++ Ud).all okD = true := by decide +kernel
theorem okP_all : (Ua ++ Ub).all okP = true := by decide +kernel

theorem zero_a : Ua.filter (fun m => m.j == 0) = [mk 0 0 0 [] LL] := by decide +kernel
theorem zero_b : Ub.filter (fun m => m.j == 0) = [] := by decide +kernel
theorem zero_c : Uc.filter (fun m => m.j == 0) = [] := by decide +kernel
theorem zero_d : Ud.filter (fun m => m.j == 0) = [mk 0 0 0 [] LL] := by decide +kernel

/-- the terms beyond the tables are of total power at least 9 -/
theorem ext_high : (extA ++ extB ++ extC ++ extD).all (fun m => Nat.ble 9 (m.j + m.p)) = true := by decide +kernel

/-- rows and letters in range -/
def inRange (m : RM) : Bool := Nat.blt m.i 6 && m.w.all (fun k => Nat.blt k 10)
theorem inRange_all : (Ua ++ Ub ++ Uc ++ Ud ++ hNP MEntry4.a 0 tH ++ hNP MEntry4.b 0 tH ++ hNP MEntry4.c 0 tH ++ hNP MEntry4.d 0 tH).all inRange = true := by
  decide +kernel

/-- every `v_k` comes with `k` powers of `δ` and `h`, and there is one power more unless the word is empty -/
def hom (m : RM) : Bool := m.w.isEmpty || Nat.ble (m.w.sum + 1) (m.j + m.p)
theorem hom_all : (tD MEntry4.a ++ tD MEntry4.b ++ tD MEntry4.c ++ tD MEntry4.d ++ hNP MEntry4.a 0 tH ++ hNP MEntry4.b 0 tH ++ hNP MEntry4.c 0 tH ++
    hNP MEntry4.d 0 tH).all hom = true := by decide +kernel

end Verif.NP
