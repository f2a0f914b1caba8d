import Verif.Model.Propagate
import Verif.Props.Lookup
import Verif.Props.YT
import Mathlib.Logic.Equiv.Defs
import Mathlib.Algebra.Group.End
import Mathlib.Data.List.Range
import Mathlib.Tactic.Group

set_option linter.unusedSectionVars false
namespace Verif.Propag
open Verif.Mesh Verif.YT Verif.Spec

/-! ### The walk over the mesh as a fold -/
section walk
variable {K : Type} [Add K] [Sub K] [Mul K] [Neg K] [Zero K] [One K] [CCmp K]

/-- One loop body of `Matslise::propagate` in sector `k`. -/
def Prob.stepAt (P : Prob K) (E : K) (useH : Bool) (a b : K) (st : Y K × K) (k : Nat) : Y K × K :=
  match P.secs[k]? with
  | none => st
  | some s =>
    let r := s.propagate E useH st.1 a b
    (r.1, st.2 + r.2)

/-- The sector indices visited from sector `i` to sector `j`. -/
def visited (i j : Nat) : List Nat :=
  if i ≤ j then List.range' i (j - i + 1) else (List.range' j (i - j + 1)).reverse

theorem mesh_length (P : Prob K) : P.mesh.length = P.secs.length := by simp [Prob.mesh]

theorem mesh_get (P : Prob K) (i : Nat) (hi : i < P.secs.length) :
    P.mesh[i]'(by rw [mesh_length]; exact hi) = (P.secs[i]).toSec := by simp [Prob.mesh]

/-- Walking to the right from sector `i`. -/
theorem walk_up [IeeeOrd K] (P : Prob K) (hm : IsMesh P.mesh P.dmin P.dmax) (useH : Bool)
    (a b : K) (hab : CCmp.lt a b = true) (hb : domainContains P.dmin P.dmax b = true) :
    ∀ (fuel i : Nat) (hi : i < P.secs.length),
      CCmp.le (P.secs[i]).min b = true → P.secs.length - i ≤ fuel + 1 →
      ∃ j, ∃ hj : j < P.secs.length, i ≤ j ∧ (P.secs[j]).contains b = true ∧
        (∀ k (hk : k < P.secs.length), i ≤ k → k < j → CCmp.le (P.secs[k]).max b = true) ∧
        ∀ E st, P.walk E useH a b fuel i st =
          .ok ((List.range' i (j - i + 1)).foldl (P.stepAt E useH a b) st) := by
  have hbb : CCmp.le b b = true := by
    simp only [domainContains, Bool.and_eq_true] at hb
    exact IeeeOrd.le_right _ _ hb.1
  intro fuel
  induction fuel with
  | zero =>
    intro i hi hmin hf
    have hlast : i = P.secs.length - 1 := by omega
    have hcon : (P.secs[i]).contains b = true := by
      have h1 := hm.last
      have h2 : P.mesh[P.mesh.length - 1]'(by rw [mesh_length]; omega) = (P.secs[i]).toSec := by
        have := mesh_get P i hi
        rw [← this]; congr 1; rw [mesh_length]; exact hlast.symm
      rw [h2] at h1
      simp only [domainContains, Bool.and_eq_true] at hb
      simp only [Sec.contains, h1, hb.2, hmin, Bool.and_true]
    refine ⟨i, hi, le_rfl, hcon, fun k _ h1 h2 => by omega, fun E st => ?_⟩
    unfold Prob.walk
    have h0 : (0 : Int) ≤ (i : Int) := by omega
    simp only [h0, if_true, Int.toNat_natCast, List.getElem?_eq_getElem hi, hcon]
    simp [List.range'_succ, Prob.stepAt, List.getElem?_eq_getElem hi]
  | succ fuel ih =>
    intro i hi hmin hf
    have h0 : (0 : Int) ≤ (i : Int) := by omega
    by_cases hcon : (P.secs[i]).contains b = true
    · refine ⟨i, hi, le_rfl, hcon, fun k _ h1 h2 => by omega, fun E st => ?_⟩
      unfold Prob.walk
      simp only [h0, if_true, Int.toNat_natCast, List.getElem?_eq_getElem hi, hcon]
      simp [List.range'_succ, Prob.stepAt, List.getElem?_eq_getElem hi]
    · -- then b is beyond this sector, which is not the last one
      have hle : CCmp.le b (P.secs[i]).max = false := by
        simpa [Sec.contains, hmin] using hcon
      have hord := hm.ordered ((P.secs[i]).toSec) (by rw [← mesh_get P i hi]; exact List.getElem_mem _)
      have hmax : CCmp.le (P.secs[i]).max b = true :=
        le_of_not_le hbb (IeeeOrd.le_right _ _ hord) hle
      have hnl : i + 1 < P.secs.length := by
        by_contra hge
        have hlast : i = P.secs.length - 1 := by omega
        have h1 := hm.last
        have h2 : P.mesh[P.mesh.length - 1]'(by rw [mesh_length]; omega) = (P.secs[i]).toSec := by
          have := mesh_get P i hi
          rw [← this]; congr 1; rw [mesh_length]; exact hlast.symm
        rw [h2] at h1
        simp only [domainContains, Bool.and_eq_true] at hb
        rw [h1, hb.2] at hle
        exact absurd hle (by simp)
      have hst := (hm.step i (by rw [mesh_length]; exact hnl)).2
      rw [mesh_get P i hi, mesh_get P (i + 1) hnl] at hst
      obtain ⟨j, hj, hij, hcj, hk, he⟩ := ih (i + 1) hnl
        (IeeeOrd.trans _ _ _ hst hmax) (by omega)
      refine ⟨j, hj, by omega, hcj, ?_, ?_⟩
      · intro k hk1 hk2 hk3
        rcases Nat.eq_or_lt_of_le hk2 with h | h
        · subst h; exact hmax
        · exact hk k hk1 h hk3
      · intro E st
        unfold Prob.walk
        have hi' : (0 : Int) ≤ (i : Int) + 1 ∧ (i : Int) + 1 < (P.secs.length : Int) := by omega
        simp only [h0, if_true, Int.toNat_natCast, List.getElem?_eq_getElem hi, hcon, hab, hi',
          and_self]
        have hr : List.range' i (j - i + 1) = i :: List.range' (i + 1) (j - (i + 1) + 1) := by
          have : j - i + 1 = (j - (i + 1) + 1) + 1 := by omega
          rw [this, List.range'_succ]
        rw [hr, List.foldl_cons]
        simp only [Bool.false_eq_true, if_false]
        have := he E (P.stepAt E useH a b st i)
        simp only [Nat.cast_add, Nat.cast_one] at this
        rw [← this]
        congr 1
        simp [Prob.stepAt, List.getElem?_eq_getElem hi]

/-- Walking to the left (or staying) from sector `i`. -/
theorem walk_down [IeeeOrd K] (P : Prob K) (hm : IsMesh P.mesh P.dmin P.dmax) (useH : Bool)
    (a b : K) (hab : CCmp.lt a b = false) (hb : domainContains P.dmin P.dmax b = true) :
    ∀ (fuel i : Nat) (hi : i < P.secs.length),
      CCmp.le b (P.secs[i]).max = true → i ≤ fuel →
      ∃ j, ∃ hj : j < P.secs.length, j ≤ i ∧ (P.secs[j]).contains b = true ∧
        (∀ k (hk : k < P.secs.length), k ≤ i → j < k → CCmp.le b (P.secs[k]).min = true) ∧
        ∀ E st, P.walk E useH a b fuel i st =
          .ok ((List.range' j (i - j + 1)).reverse.foldl (P.stepAt E useH a b) st) := by
  have hbb : CCmp.le b b = true := by
    simp only [domainContains, Bool.and_eq_true] at hb
    exact IeeeOrd.le_right _ _ hb.1
  intro fuel
  have hfirst : ∀ hi : 0 < P.secs.length, CCmp.le b (P.secs[0]).max = true →
      (P.secs[0]).contains b = true := by
    intro hi hmax
    have h1 := hm.first
    rw [mesh_get P 0 hi] at h1
    simp only [domainContains, Bool.and_eq_true] at hb
    simp only [Sec.contains, h1, hb.1, hmax, Bool.and_true]
  induction fuel with
  | zero =>
    intro i hi hmax hf
    have hz : i = 0 := by omega
    subst hz
    have hcon := hfirst hi hmax
    refine ⟨0, hi, le_rfl, hcon, fun k _ h1 h2 => by omega, fun E st => ?_⟩
    unfold Prob.walk
    simp [List.getElem?_eq_getElem hi, hcon, Prob.stepAt]
  | succ fuel ih =>
    intro i hi hmax hf
    have h0 : (0 : Int) ≤ (i : Int) := by omega
    by_cases hcon : (P.secs[i]).contains b = true
    · refine ⟨i, hi, le_rfl, hcon, fun k _ h1 h2 => by omega, fun E st => ?_⟩
      unfold Prob.walk
      simp only [h0, if_true, Int.toNat_natCast, List.getElem?_eq_getElem hi, hcon]
      simp [List.range'_succ, Prob.stepAt, List.getElem?_eq_getElem hi]
    · have hle : CCmp.le (P.secs[i]).min b = false := by
        simpa [Sec.contains, hmax] using hcon
      have hord := hm.ordered ((P.secs[i]).toSec) (by rw [← mesh_get P i hi]; exact List.getElem_mem _)
      have hmin : CCmp.le b (P.secs[i]).min = true :=
        le_of_not_le (IeeeOrd.le_left _ _ hord) hbb hle
      have hpos : 0 < i := by
        by_contra hz
        have hz : i = 0 := by omega
        subst hz
        exact hcon (hfirst hi hmax)
      obtain ⟨i', rfl⟩ : ∃ i', i = i' + 1 := ⟨i - 1, by omega⟩
      have hi' : i' < P.secs.length := by omega
      have hst := (hm.step i' (by rw [mesh_length]; exact hi)).2
      rw [mesh_get P i' hi', mesh_get P (i' + 1) hi] at hst
      obtain ⟨j, hj, hij, hcj, hk, he⟩ := ih i' hi'
        (IeeeOrd.trans _ _ _ hmin hst) (by omega)
      refine ⟨j, hj, by omega, hcj, ?_, ?_⟩
      · intro k hk1 hk2 hk3
        rcases Nat.eq_or_lt_of_le hk2 with h | h
        · subst h; exact hmin
        · exact hk k hk1 (by omega) hk3
      · intro E st
        unfold Prob.walk
        have hi2 : (0 : Int) ≤ ((i' + 1 : Nat) : Int) - 1 ∧
            ((i' + 1 : Nat) : Int) - 1 < (P.secs.length : Int) := by omega
        simp only [h0, if_true, Int.toNat_natCast, List.getElem?_eq_getElem hi, hcon, hab]
        have hr : (List.range' j (i' + 1 - j + 1)).reverse =
            (i' + 1) :: (List.range' j (i' - j + 1)).reverse := by
          have e1 : i' + 1 - j + 1 = (i' - j + 1) + 1 := by omega
          rw [e1, List.range'_concat, List.reverse_append]
          have : j + 1 * (i' - j + 1) = i' + 1 := by omega
          rw [this]; rfl
        rw [hr, List.foldl_cons]
        simp only [Bool.false_eq_true, if_false]
        have e2 : ((i' + 1 : Nat) : Int) - 1 = (i' : Int) := by omega
        rw [e2, ← he E (P.stepAt E useH a b st (i' + 1))]
        congr 1
        simp [Prob.stepAt, List.getElem?_eq_getElem hi]
        intro h; omega

/-- The initial angle of `Matslise::propagate`, matslise.cpp:27-30. -/
def Prob.initTheta (P : Prob K) (pi E : K) (y : Y K) (a b : K) (i : Nat) : K :=
  match P.secs[i]? with
  | none => 0
  | some s =>
    let t := s.theta0 E y
    if CCmp.lt t 0 || (CCmp.lt b a && CCmp.eq t 0) then t + pi else t

/-- `Matslise::propagate` in closed form: start in a sector `i` containing `a`, stop in the first
sector `j` containing `b`, and apply the sector steps in between. -/
theorem propagate_closed [IeeeOrd K] (P : Prob K) (hm : IsMesh P.mesh P.dmin P.dmax) (pi : K)
    (a b : K) (useH : Bool)
    (ha : domainContains P.dmin P.dmax a = true) (hb : domainContains P.dmin P.dmax b = true) :
    ∃ i j, ∃ hi : i < P.secs.length, ∃ hj : j < P.secs.length,
      (P.secs[i]).contains a = true ∧ (P.secs[j]).contains b = true ∧
      (CCmp.lt a b = true → i ≤ j ∧
        ∀ k (hk : k < P.secs.length), i ≤ k → k < j → CCmp.le (P.secs[k]).max b = true) ∧
      (CCmp.lt a b = false → j ≤ i ∧
        ∀ k (hk : k < P.secs.length), k ≤ i → j < k → CCmp.le b (P.secs[k]).min = true) ∧
      ∀ E y, P.propagate pi E y a b useH = .ok ((visited i j).foldl (P.stepAt E useH a b)
          (y, P.initTheta pi E y a b i)) := by
  obtain ⟨i, hi, he, hc⟩ := (C08_find_sector hm a).1 ha
  rw [mesh_length] at hi
  rw [mesh_get P i hi] at hc
  have hc' := hc
  simp only [Sec.contains, Bool.and_eq_true] at hc'
  have hhead : ∀ E y, P.propagate pi E y a b useH =
      P.walk E useH a b P.secs.length i (y, P.initTheta pi E y a b i) := by
    intro E y
    unfold Prob.propagate
    have h0 : (0 : Int) ≤ (i : Int) := by omega
    simp only [ha, hb, Bool.not_true, Bool.or_self, he, Outcome.bind_ok, h0, if_true,
      Int.toNat_natCast, List.getElem?_eq_getElem hi, Prob.initTheta, Bool.false_eq_true, if_false]
  by_cases hab : CCmp.lt a b = true
  · have hlt := (IeeeOrd.lt_iff _ _).mp hab
    have hab' : CCmp.le a b = true := le_of_not_le hlt.2.1 hlt.1 hlt.2.2
    obtain ⟨j, hj, hij, hcj, hk, hw⟩ := walk_up P hm useH a b hab hb P.secs.length i
      hi (IeeeOrd.trans _ _ _ hc'.2 hab') (by omega)
    refine ⟨i, j, hi, hj, hc, hcj, fun _ => ⟨hij, hk⟩, fun h => by simp [hab] at h, ?_⟩
    intro E y
    rw [hhead, hw]
    simp [visited, hij]
  · have hab0 : CCmp.lt a b = false := by simpa using hab
    have hbb : CCmp.le b b = true := by
      simp only [domainContains, Bool.and_eq_true] at hb
      exact IeeeOrd.le_right _ _ hb.1
    have haa : CCmp.le a a = true := IeeeOrd.le_left _ _ hc'.1
    have hba : CCmp.le b a = true := by
      by_contra hne
      exact hab ((IeeeOrd.lt_iff _ _).mpr ⟨haa, hbb, by simpa using hne⟩)
    obtain ⟨j, hj, hij, hcj, hk, hw⟩ := walk_down P hm useH a b hab0 hb P.secs.length i
      hi (IeeeOrd.trans _ _ _ hba hc'.1) (by omega)
    refine ⟨i, j, hi, hj, hc, hcj, fun h => by simp [hab0] at h, fun _ => ⟨hij, hk⟩, ?_⟩
    intro E y
    rw [hhead, hw]
    rcases Nat.eq_or_lt_of_le hij with h | h
    · subst h; simp [visited]
    · simp [visited, show ¬ i ≤ j by omega]

end walk
end Verif.Propag

/-! ### The values do not depend on the accumulated angle -/
namespace Verif.Propag
open Verif.Mesh Verif.YT Verif.Spec
section vals
variable {K : Type} [Add K] [Sub K] [Mul K] [Neg K] [Zero K] [One K] [CCmp K]

/-- The value part of one loop body. -/
def Prob.stepY (P : Prob K) (E : K) (useH : Bool) (a b : K) (y : Y K) (k : Nat) : Y K :=
  match P.secs[k]? with
  | none => y
  | some s => (s.propagate E useH y a b).1

theorem stepAt_fst (P : Prob K) (E : K) (useH : Bool) (a b : K) (st : Y K × K) (k : Nat) :
    (P.stepAt E useH a b st k).1 = P.stepY E useH a b st.1 k := by
  unfold Prob.stepAt Prob.stepY
  cases P.secs[k]? <;> rfl

theorem fold_fst (P : Prob K) (E : K) (useH : Bool) (a b : K) (l : List Nat) :
    ∀ st : Y K × K, (l.foldl (P.stepAt E useH a b) st).1 = l.foldl (P.stepY E useH a b) st.1 := by
  induction l with
  | nil => intro st; rfl
  | cons k l ih => intro st; simp only [List.foldl_cons]; rw [ih, stepAt_fst]

/-- A relation preserved by every sector step is preserved by `propagate` (families of energies and
columns). -/
theorem fold_rel (P : Prob K) (useH : Bool) (a b : K) {α : Type} (e : α → K) (f : α → Y K)
    (l : List Nat) (R : (α → Y K) → Prop) (h0 : R f)
    (hs : ∀ s ∈ P.secs, ∀ g : α → Y K, R g → R (fun i => (s.propagate (e i) useH (g i) a b).1)) :
    R (fun i => l.foldl (P.stepY (e i) useH a b) (f i)) := by
  induction l generalizing f with
  | nil => exact h0
  | cons k l ih =>
    simp only [List.foldl_cons]
    refine ih (fun i => P.stepY (e i) useH a b (f i) k) ?_
    unfold Prob.stepY
    cases hk : P.secs[k]? with
    | none => exact h0
    | some s => exact hs s (List.mem_of_getElem? hk) f h0

end vals

/-! ### Sector steps as group elements -/
section group
variable {K : Type} [Field K] [LinearOrder K] [IsStrictOrderedRing K]

/-- A sector step is a composition of `propagateDelta`s: every relation preserved by the transfer
matrices (within the sector width), their adjugates and by reversal is preserved by it. -/
theorem sector_rel (s : PSec K) (useH : Bool) (a b : K) {α : Type} (e : α → K) (f : α → Y K)
    (R : (α → Y K) → Prop) (h0 : R f)
    (hrev : s.dir = .backward → ∀ g, R g → R (fun i => (g i).reverse))
    (hh : 0 ≤ s.h)
    (hmul : ∀ δ, 0 ≤ δ → δ ≤ s.h → ∀ g, R g → R (fun i => (s.tr (e i) δ useH).mul (g i)))
    (hdiv : ∀ δ, 0 ≤ δ → δ ≤ s.h → ∀ g, R g → R (fun i => (s.tr (e i) δ useH).div (g i))) :
    R (fun i => (s.propagate (e i) useH (f i) a b).1) := by
  have hd : ∀ δ (g : α → Y K) (t : α → K), R g →
      R (fun i => (s.propagateDelta (e i) useH (g i, t i) δ).1) := by
    intro δ g t hg
    unfold PSec.propagateDelta
    simp only [ccmp_le, ccmp_lt, decide_eq_true_eq]
    generalize (if s.dir = .backward then -δ else δ) = ε
    have hr : ∀ ε : K, 0 ≤ ε → 0 ≤ (if s.h < ε then s.h else ε) ∧ (if s.h < ε then s.h else ε) ≤ s.h := by
      intro ε he
      split
      · exact ⟨hh, le_rfl⟩
      · exact ⟨he, not_lt.mp (by assumption)⟩
    by_cases hb : s.dir = .backward
    · simp only [hb, if_true]
      apply hrev hb
      split
      · rename_i h; exact hmul _ (hr _ h).1 (hr _ h).2 _ (hrev hb _ hg)
      · rename_i h; exact hdiv _ (hr _ (by linarith)).1 (hr _ (by linarith)).2 _ (hrev hb _ hg)
    · simp only [hb, if_false]
      split
      · rename_i h; exact hmul _ (hr _ h).1 (hr _ h).2 _ hg
      · rename_i h; exact hdiv _ (hr _ (by linarith)).1 (hr _ (by linarith)).2 _ hg
  unfold PSec.propagate
  have key : ∀ (c1 c2 : Bool) (d1 d2 : K), R (fun i =>
      (if c2 = true then s.propagateDelta (e i) useH
          (if c1 = true then s.propagateDelta (e i) useH (f i, 0) d1 else (f i, 0)) d2
        else (if c1 = true then s.propagateDelta (e i) useH (f i, 0) d1 else (f i, 0))).1) := by
    intro c1 c2 d1 d2
    have h1 : R (fun i => (if c1 = true then s.propagateDelta (e i) useH (f i, 0) d1 else (f i, 0)).1) := by
      cases c1
      · exact h0
      · exact hd _ _ _ h0
    cases c2
    · exact h1
    · exact hd d2 (fun i => (if c1 = true then s.propagateDelta (e i) useH (f i, 0) d1 else (f i, 0)).1)
        (fun i => (if c1 = true then s.propagateDelta (e i) useH (f i, 0) d1 else (f i, 0)).2) h1
  split
  · split
    · exact key _ _ _ _
    · exact key _ _ _ _
  · exact h0

/-- The same for `propagate` over the whole mesh. -/
theorem propagate_rel {P : Prob K} (hm : IsMesh P.mesh P.dmin P.dmax) (pi : K) (useH : Bool)
    {a b : K} (ha : P.dmin ≤ a ∧ a ≤ P.dmax) (hb : P.dmin ≤ b ∧ b ≤ P.dmax)
    {α : Type} (e : α → K) (f : α → Y K) (R : (α → Y K) → Prop) (h0 : R f)
    (hrev : ∀ g, R g → R (fun i => (g i).reverse))
    (hh : ∀ s ∈ P.secs, 0 ≤ s.h)
    (hmul : ∀ s ∈ P.secs, ∀ δ, 0 ≤ δ → δ ≤ s.h → ∀ g, R g →
      R (fun i => (s.tr (e i) δ useH).mul (g i)))
    (hdiv : ∀ s ∈ P.secs, ∀ δ, 0 ≤ δ → δ ≤ s.h → ∀ g, R g →
      R (fun i => (s.tr (e i) δ useH).div (g i))) :
    ∃ r : α → Y K × K, (∀ i, P.propagate pi (e i) (f i) a b useH = .ok (r i)) ∧
      R (fun i => (r i).1) := by
  have ha' : domainContains P.dmin P.dmax a = true := by simpa [domainContains] using ha
  have hb' : domainContains P.dmin P.dmax b = true := by simpa [domainContains] using hb
  obtain ⟨i, j, hi, hj, -, -, -, -, he⟩ := propagate_closed P hm pi a b useH ha' hb'
  refine ⟨_, fun q => he (e q) (f q), ?_⟩
  simp only [fold_fst]
  refine fold_rel P useH a b e f _ R h0 ?_
  intro s hs g hg
  exact sector_rel s useH a b e g R hg (fun _ => hrev) (hh s hs) (hmul s hs) (hdiv s hs)

/-- Reversal as a permutation of the columns. -/
def revP : Equiv.Perm (Y K) := ⟨Y.reverse, Y.reverse, C35_reverse_involutive, C35_reverse_involutive⟩

/-- A unimodular transfer matrix as a permutation of the columns. -/
noncomputable def ofT (A : T K) : Equiv.Perm (Y K) := by
  classical
  exact if h : A.Unimodular then ⟨A.mul, A.div, C35_div_mul A h, C35_mul_div A h⟩ else 1

theorem ofT_apply {A : T K} (h : A.Unimodular) (y : Y K) : ofT A y = A.mul y := by
  simp [ofT, h]
theorem ofT_inv_apply {A : T K} (h : A.Unimodular) (y : Y K) : (ofT A)⁻¹ y = A.div y := by
  simp only [ofT, h, dif_pos]; rfl
theorem revP_apply (y : Y K) : revP y = y.reverse := rfl
theorem revP_inv : (revP : Equiv.Perm (Y K))⁻¹ = revP := rfl

/-- A sector whose width, direction and transfer matrices are as the library maintains them. -/
structure PSec.Good (s : PSec K) (E : K) (useH : Bool) : Prop where
  lt : s.min < s.max
  h_eq : s.h = s.max - s.min
  dir : s.dir = .forward ∨ s.dir = .backward
  uni : ∀ δ, 0 ≤ δ → δ ≤ s.h → (s.tr E δ useH).Unimodular

/-- The solution operator of a sector relative to its start point. -/
noncomputable def PSec.M (s : PSec K) (E : K) (useH : Bool) (x : K) : Equiv.Perm (Y K) :=
  if s.dir = .backward then
    if s.max ≤ x then 1 else revP * ofT (s.tr E (min (s.max - x) s.h) useH) * revP
  else
    if x ≤ s.min then 1 else ofT (s.tr E (min (x - s.min) s.h) useH)

theorem sector_step {s : PSec K} {E : K} {useH : Bool} (g : s.Good E useH) (y : Y K) (a b : K) :
    (s.propagate E useH y a b).1 = (s.M E useH b * (s.M E useH a)⁻¹) y := by
  have hlt := g.lt
  have hh := g.h_eq
  have huni : ∀ d : K, 0 < d → (s.tr E (min d s.h) useH).Unimodular := fun d hd =>
    g.uni _ (le_min hd.le (by rw [hh]; linarith)) (min_le_right _ _)
  have hmin : ∀ d : K, (if s.h < d then s.h else d) = min d s.h := by
    intro d
    by_cases h : s.h < d
    · simp [h, min_eq_right h.le]
    · simp [h, min_eq_left (not_lt.mp h)]
  rcases g.dir with hd | hd
  · -- forward
    have hb : ¬ s.dir = .backward := by simp [hd]
    unfold PSec.propagate
    have hback : ∀ (z : Y K × K) (x : K), s.min < x →
        (s.propagateDelta E useH z (s.min - x)).1 = (s.M E useH x)⁻¹ z.1 := by
      intro z x hx
      have hpos : 0 < x - s.min := by linarith
      have hneg : ¬ (0 ≤ s.min - x) := by linarith
      have hn : -(s.min - x) = x - s.min := by ring
      simp only [PSec.propagateDelta, PSec.M, hb, if_false, ccmp_le, ccmp_lt, hneg, decide_false,
        decide_eq_true_eq, Bool.false_eq_true, hn, hmin, not_le.mpr hx]
      rw [ofT_inv_apply (huni _ hpos)]
    have hfwd : ∀ (z : Y K × K) (x : K), s.min < x →
        (s.propagateDelta E useH z (x - s.min)).1 = (s.M E useH x) z.1 := by
      intro z x hx
      have hpos : 0 < x - s.min := by linarith
      simp only [PSec.propagateDelta, PSec.M, hb, if_false, ccmp_le, ccmp_lt, hpos.le, decide_true,
        decide_eq_true_eq, if_true, hmin, not_le.mpr hx]
      rw [ofT_apply (huni _ hpos)]
    have hone : ∀ x, x ≤ s.min → s.M E useH x = 1 := by
      intro x hx; simp [PSec.M, hb, hx]
    have hfar : ∀ x, s.max ≤ x → s.M E useH x = s.M E useH s.max := by
      intro x hx
      have h1 : ¬ x ≤ s.min := by linarith
      have h2 : ¬ s.max ≤ s.min := by linarith
      simp only [PSec.M, hb, if_false, h1, h2]
      rw [min_eq_right (by rw [hh]; linarith), min_eq_right (by rw [hh])]
    simp only [ccmp_le, ccmp_lt]
    by_cases c1 : s.max ≤ a ∧ s.max ≤ b
    · simp [c1.1, c1.2, hfar a c1.1, hfar b c1.2]
    · by_cases c2 : a ≤ s.min ∧ b ≤ s.min
      · simp [c2.1, c2.2, hone a c2.1, hone b c2.2]
      · have hc : (!(decide (s.max ≤ a) && decide (s.max ≤ b) ||
            decide (a ≤ s.min) && decide (b ≤ s.min))) = true := by
          simp only [Bool.not_eq_true', Bool.or_eq_false_iff, Bool.and_eq_false_iff,
            decide_eq_false_iff_not]
          constructor
          · by_contra h; exact c1 (by push Not at h; exact h)
          · by_contra h; exact c2 (by push Not at h; exact h)
        rw [if_pos hc, if_pos hd]
        by_cases ha : s.min < a <;> by_cases hb' : s.min < b
        · simp only [ha, hb', decide_true, if_true]
          rw [hfwd _ _ hb', hback _ _ ha]; rfl
        · simp only [ha, hb', decide_true, decide_false, if_true, Bool.false_eq_true, if_false]
          rw [hback _ _ ha, hone b (not_lt.mp hb')]; rfl
        · simp only [ha, hb', decide_true, decide_false, if_true, Bool.false_eq_true, if_false]
          rw [hfwd _ _ hb', hone a (not_lt.mp ha)]; rfl
        · exact absurd ⟨not_lt.mp ha, not_lt.mp hb'⟩ c2
  · -- backward
    have hnf : ¬ s.dir = .forward := by simp [hd]
    unfold PSec.propagate
    have hback : ∀ (z : Y K × K) (x : K), x < s.max →
        (s.propagateDelta E useH z (s.max - x)).1 = (s.M E useH x)⁻¹ z.1 := by
      intro z x hx
      have hpos : 0 < s.max - x := by linarith
      have hneg : ¬ (0 ≤ -(s.max - x)) := by linarith
      simp only [PSec.propagateDelta, PSec.M, hd, if_true, ccmp_le, ccmp_lt, hneg, decide_false,
        decide_eq_true_eq, Bool.false_eq_true, if_false, neg_neg, hmin, not_le.mpr hx]
      rw [mul_inv_rev, mul_inv_rev, revP_inv]
      simp only [Equiv.Perm.mul_apply, revP_apply]
      rw [ofT_inv_apply (huni _ hpos)]
    have hfwd : ∀ (z : Y K × K) (x : K), x < s.max →
        (s.propagateDelta E useH z (x - s.max)).1 = (s.M E useH x) z.1 := by
      intro z x hx
      have hpos : 0 < s.max - x := by linarith
      have hn : -(x - s.max) = s.max - x := by ring
      simp only [PSec.propagateDelta, PSec.M, hd, if_true, ccmp_le, ccmp_lt, hn, hpos.le,
        decide_true, decide_eq_true_eq, hmin, not_le.mpr hx, if_false]
      simp only [Equiv.Perm.mul_apply, revP_apply]
      rw [ofT_apply (huni _ hpos)]
    have hone : ∀ x, s.max ≤ x → s.M E useH x = 1 := by
      intro x hx; simp [PSec.M, hd, hx]
    have hfar : ∀ x, x ≤ s.min → s.M E useH x = s.M E useH s.min := by
      intro x hx
      have h1 : ¬ s.max ≤ x := by linarith
      have h2 : ¬ s.max ≤ s.min := by linarith
      simp only [PSec.M, hd, if_true, if_false, h1, h2]
      rw [min_eq_right (by rw [hh]; linarith), min_eq_right (by rw [hh])]
    simp only [ccmp_le, ccmp_lt]
    by_cases c1 : s.max ≤ a ∧ s.max ≤ b
    · simp [c1.1, c1.2, hone a c1.1, hone b c1.2]
    · by_cases c2 : a ≤ s.min ∧ b ≤ s.min
      · simp [c2.1, c2.2, hfar a c2.1, hfar b c2.2]
      · have hc : (!(decide (s.max ≤ a) && decide (s.max ≤ b) ||
            decide (a ≤ s.min) && decide (b ≤ s.min))) = true := by
          simp only [Bool.not_eq_true', Bool.or_eq_false_iff, Bool.and_eq_false_iff,
            decide_eq_false_iff_not]
          constructor
          · by_contra h; exact c1 (by push Not at h; exact h)
          · by_contra h; exact c2 (by push Not at h; exact h)
        rw [if_pos hc, if_neg hnf]
        by_cases ha : a < s.max <;> by_cases hb' : b < s.max
        · simp only [ha, hb', decide_true, if_true]
          rw [hfwd _ _ hb', hback _ _ ha]; rfl
        · simp only [ha, hb', decide_true, decide_false, if_true, Bool.false_eq_true, if_false]
          rw [hback _ _ ha, hone b (not_lt.mp hb')]; rfl
        · simp only [ha, hb', decide_true, decide_false, if_true, Bool.false_eq_true, if_false]
          rw [hfwd _ _ hb', hone a (not_lt.mp ha)]; rfl
        · exact absurd ⟨not_lt.mp ha, not_lt.mp hb'⟩ c1

/-- The solution operator of a sector relative to its left end. -/
noncomputable def PSec.N (s : PSec K) (E : K) (useH : Bool) (x : K) : Equiv.Perm (Y K) :=
  s.M E useH x * (s.M E useH s.min)⁻¹

theorem N_step (s : PSec K) (E : K) (useH : Bool) (a b : K) :
    s.M E useH b * (s.M E useH a)⁻¹ = s.N E useH b * (s.N E useH a)⁻¹ := by
  unfold PSec.N; group

theorem N_left {s : PSec K} {E : K} {useH : Bool} (g : s.Good E useH) {x : K} (hx : x ≤ s.min) :
    s.N E useH x = 1 := by
  have hlt := g.lt
  unfold PSec.N PSec.M
  rcases g.dir with hd | hd
  · simp [hd, hx]
  · have h1 : ¬ s.max ≤ x := by linarith
    have h2 : ¬ s.max ≤ s.min := by linarith
    have e1 : min (s.max - x) s.h = s.h := min_eq_right (by rw [g.h_eq]; linarith)
    have e2 : min (s.max - s.min) s.h = s.h := min_eq_right (by rw [g.h_eq])
    simp only [hd, if_true, h1, h2, if_false, e1, e2, mul_inv_cancel]

theorem N_right {s : PSec K} {E : K} {useH : Bool} (g : s.Good E useH) {x : K} (hx : s.max ≤ x) :
    s.N E useH x = s.N E useH s.max := by
  have hlt := g.lt
  unfold PSec.N PSec.M
  rcases g.dir with hd | hd
  · have h1 : ¬ x ≤ s.min := by linarith
    have h2 : ¬ s.max ≤ s.min := by linarith
    have e1 : min (x - s.min) s.h = s.h := min_eq_right (by rw [g.h_eq]; linarith)
    have e2 : min (s.max - s.min) s.h = s.h := min_eq_right (by rw [g.h_eq])
    simp [hd, h1, h2, e1, e2]
  · simp [hd, hx]

/-- Prefix products: the solution operator over the first `k` sectors. -/
noncomputable def Prob.Pi (P : Prob K) (E : K) (useH : Bool) (x : K) : Nat → Equiv.Perm (Y K)
  | 0 => 1
  | k + 1 => (match P.secs[k]? with
      | none => 1
      | some s => s.N E useH x) * Prob.Pi P E useH x k

/-- A problem whose mesh tiles the domain and whose sectors are good. -/
structure Prob.Good (P : Prob K) (E : K) (useH : Bool) : Prop where
  mesh : IsMesh P.mesh P.dmin P.dmax
  secs : ∀ s ∈ P.secs, s.Good E useH

theorem Good.max_le_min {P : Prob K} {E : K} {useH : Bool} (g : P.Good E useH) {i j : Nat}
    (hij : i < j) (hj : j < P.secs.length) :
    (P.secs[i]'(by omega)).max ≤ (P.secs[j]).min := by
  obtain ⟨d, rfl⟩ : ∃ d, j = i + d := ⟨j - i, by omega⟩
  have := (g.mesh.mono d i (by rw [mesh_length]; exact hj)).2.2 (by omega)
  rw [mesh_get P i (by omega), mesh_get P (i + d) hj] at this
  simpa using this

theorem Pi_succ (P : Prob K) (E : K) (useH : Bool) (x : K) (k : Nat) (hk : k < P.secs.length) :
    P.Pi E useH x (k + 1) = (P.secs[k]).N E useH x * P.Pi E useH x k := by
  simp [Prob.Pi, List.getElem?_eq_getElem hk]

/-- the whole solution operator is already reached in the sector containing the point -/
theorem Pi_full {P : Prob K} {E : K} {useH : Bool} (g : P.Good E useH) {x : K} {i : Nat}
    (hi : i < P.secs.length) (hx : x ≤ (P.secs[i]).max) (k : Nat) (hk : i + 1 + k ≤ P.secs.length) :
    P.Pi E useH x (i + 1 + k) = P.Pi E useH x (i + 1) := by
  induction k with
  | zero => rfl
  | succ k ih =>
    have hk' : i + 1 + k < P.secs.length := by omega
    rw [show i + 1 + (k + 1) = (i + 1 + k) + 1 by omega, Pi_succ P E useH x _ hk', ih (by omega)]
    rw [N_left (g.secs _ (List.getElem_mem _))
      (hx.trans (Good.max_le_min g (show i < i + 1 + k by omega) hk')), one_mul]

/-- left of both points the prefix products agree -/
theorem Pi_left {P : Prob K} {E : K} {useH : Bool} (g : P.Good E useH) {a b : K} (k : Nat)
    (hk : k ≤ P.secs.length)
    (h : ∀ i (hi : i < P.secs.length), i < k → (P.secs[i]).max ≤ a ∧ (P.secs[i]).max ≤ b) :
    P.Pi E useH a k = P.Pi E useH b k := by
  induction k with
  | zero => rfl
  | succ k ih =>
    have hk' : k < P.secs.length := by omega
    rw [Pi_succ P E useH a k hk', Pi_succ P E useH b k hk', ih (by omega) (fun i hi hik => h i hi (by omega))]
    have := h k hk' (by omega)
    have gs := g.secs _ (List.getElem_mem hk')
    rw [N_right gs this.1, N_right gs this.2]

/-- The fundamental operator of the whole problem. -/
noncomputable def Prob.Phi (P : Prob K) (E : K) (useH : Bool) (x : K) : Equiv.Perm (Y K) :=
  P.Pi E useH x P.secs.length

/-- One loop body as a group element. -/
noncomputable def Prob.stepG (P : Prob K) (E : K) (useH : Bool) (a b : K) (k : Nat) :
    Equiv.Perm (Y K) :=
  match P.secs[k]? with
  | none => 1
  | some s => s.N E useH b * (s.N E useH a)⁻¹

theorem stepY_eq {P : Prob K} {E : K} {useH : Bool} (g : P.Good E useH) (a b : K) (y : Y K) (k : Nat) :
    P.stepY E useH a b y k = P.stepG E useH a b k y := by
  unfold Prob.stepY Prob.stepG
  cases hk : P.secs[k]? with
  | none => rfl
  | some s => simp only []; rw [sector_step (g.secs s (List.mem_of_getElem? hk)), N_step]

/-- Steps going up from sector `i` multiply to the difference of prefix products. -/
theorem fold_up {P : Prob K} {E : K} {useH : Bool} (g : P.Good E useH) {a b : K} {i : Nat}
    (hi : i < P.secs.length) (ha1 : (P.secs[i]).min ≤ a) (ha2 : a ≤ (P.secs[i]).max)
    (hab : a ≤ b) (d : Nat) (hd : i + d < P.secs.length) (y : Y K) :
    (List.range' i (d + 1)).foldl (P.stepY E useH a b) y =
      (P.Pi E useH b (i + d + 1) * (P.Pi E useH a (i + 1))⁻¹) y := by
  induction d with
  | zero =>
    have hl : P.Pi E useH a i = P.Pi E useH b i := by
      refine Pi_left g i hi.le ?_
      intro k hk hki
      have := Good.max_le_min g hki hi
      exact ⟨this.trans ha1, (this.trans ha1).trans hab⟩
    simp only [Nat.zero_add, List.range'_one, List.foldl_cons, List.foldl_nil, Nat.add_zero]
    rw [stepY_eq g, Pi_succ P E useH a i hi, Pi_succ P E useH b i hi, hl]
    simp only [Prob.stepG, List.getElem?_eq_getElem hi]
    congr 1; group
  | succ d ih =>
    rw [show d + 1 + 1 = (d + 1) + 1 from rfl, List.range'_concat, List.foldl_append, ih (by omega)]
    have hk : i + 1 * (d + 1) = i + (d + 1) := by omega
    simp only [List.foldl_cons, List.foldl_nil, hk]
    rw [stepY_eq g]
    have hN : (P.secs[i + (d + 1)]).N E useH a = 1 :=
      N_left (g.secs _ (List.getElem_mem _)) (ha2.trans (Good.max_le_min g (by omega) hd))
    rw [Pi_succ P E useH b (i + (d + 1)) hd]
    simp only [Prob.stepG, List.getElem?_eq_getElem hd, hN, inv_one, mul_one]
    rfl

/-- A list of group steps, applied in order. -/
theorem foldl_stepG {P : Prob K} {E : K} {useH : Bool} (g : P.Good E useH) (a b : K) (l : List Nat)
    (y : Y K) : l.foldl (P.stepY E useH a b) y = ((l.map (P.stepG E useH a b)).reverse.prod) y := by
  induction l generalizing y with
  | nil => rfl
  | cons k l ih =>
    simp only [List.foldl_cons, List.map_cons, List.reverse_cons, List.prod_append,
      List.prod_singleton]
    rw [ih, stepY_eq g]; rfl

theorem stepG_inv (P : Prob K) (E : K) (useH : Bool) (a b : K) (k : Nat) :
    (P.stepG E useH a b k)⁻¹ = P.stepG E useH b a k := by
  unfold Prob.stepG
  cases P.secs[k]? with
  | none => simp
  | some s => simp only []; group

theorem prod_reverse_inv (l : List (Equiv.Perm (Y K))) :
    l.prod = ((l.map (·⁻¹)).reverse.prod)⁻¹ := by
  rw [List.prod_inv_reverse]
  simp [List.map_reverse]

/-- **Key lemma.** On a good problem, `propagate` computes `Φ(b) Φ(a)⁻¹ y`. -/
theorem propagate_eq_Phi {P : Prob K} {E : K} {useH : Bool} (g : P.Good E useH) (pi : K) (y : Y K)
    {a b : K} (ha : P.dmin ≤ a ∧ a ≤ P.dmax) (hb : P.dmin ≤ b ∧ b ≤ P.dmax) :
    ∃ θ, P.propagate pi E y a b useH =
      .ok ((P.Phi E useH b * (P.Phi E useH a)⁻¹) y, θ) := by
  have ha' : domainContains P.dmin P.dmax a = true := by simpa [domainContains] using ha
  have hb' : domainContains P.dmin P.dmax b = true := by simpa [domainContains] using hb
  obtain ⟨i, j, hi, hj, hca, hcb, hup, hdn, he⟩ := propagate_closed P g.mesh pi a b useH ha' hb'
  simp only [Sec.contains, ccmp_le, Bool.and_eq_true, decide_eq_true_eq] at hca hcb
  have hPa : P.Phi E useH a = P.Pi E useH a (i + 1) := by
    unfold Prob.Phi
    have := Pi_full g hi hca.1 (P.secs.length - (i + 1)) (by omega)
    rwa [show i + 1 + (P.secs.length - (i + 1)) = P.secs.length by omega] at this
  have hPb : P.Phi E useH b = P.Pi E useH b (j + 1) := by
    unfold Prob.Phi
    have := Pi_full g hj hcb.1 (P.secs.length - (j + 1)) (by omega)
    rwa [show j + 1 + (P.secs.length - (j + 1)) = P.secs.length by omega] at this
  refine ⟨((visited i j).foldl (P.stepAt E useH a b) (y, P.initTheta pi E y a b i)).2, ?_⟩
  rw [he E y]
  refine congrArg Outcome.ok (Prod.ext ?_ rfl)
  simp only []
  rw [fold_fst, hPa, hPb]
  by_cases hab : a < b
  · have hij := (hup (by simpa using hab)).1
    have := fold_up g hi hca.2 hca.1 hab.le (j - i) (by omega) y
    simp only [visited, hij, if_true]
    rw [this, show i + (j - i) + 1 = j + 1 by omega]
  · have hba := not_lt.mp hab
    have hij := (hdn (by simpa using hba)).1
    have hv : visited i j = (List.range' j (i - j + 1)).reverse := by
      rcases Nat.eq_or_lt_of_le hij with h | h
      · subst h; simp [visited]
      · simp [visited, show ¬ i ≤ j by omega]
    have hperm : ((List.range' j (i - j + 1)).map (P.stepG E useH b a)).reverse.prod =
        P.Pi E useH a (i + 1) * (P.Pi E useH b (j + 1))⁻¹ := by
      refine Equiv.ext fun z => ?_
      rw [← foldl_stepG g, fold_up g hj hcb.2 hcb.1 hba (i - j) (by omega) z,
        show j + (i - j) + 1 = i + 1 by omega]
    rw [hv, foldl_stepG g, List.map_reverse, List.reverse_reverse, prod_reverse_inv, List.map_map]
    have hinv : ((fun x : Equiv.Perm (Y K) => x⁻¹) ∘ P.stepG E useH a b) = P.stepG E useH b a := by
      funext k; exact stepG_inv P E useH a b k
    rw [hinv, hperm, mul_inv_rev, inv_inv]

end group
end Verif.Propag
