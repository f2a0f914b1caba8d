import Verif.Model.Matscs
import Verif.Props.Lookup
import Mathlib.Logic.Equiv.Defs
import Mathlib.Algebra.Group.End
import Mathlib.Data.List.Range
import Mathlib.Tactic.Group

/-!
# The sector walk over an arbitrary state
-/
set_option linter.unusedSectionVars false
namespace Verif.Matscs
open Verif.Mesh Verif.Spec

section walk
variable {K : Type} [CCmp K]

/-- Walking to the right from sector `i`. -/
theorem walkG_up [IeeeOrd K] {secs : List (Sec K)} {dmin dmax : K} (hm : IsMesh secs dmin dmax)
    (a b : K) (hab : CCmp.lt a b = true) (hb : Mesh.domainContains dmin dmax b = true) :
    ∀ (fuel i : Nat) (hi : i < secs.length),
      CCmp.le (secs[i]).min b = true → secs.length - i ≤ fuel + 1 →
      ∃ j, ∃ hj : j < secs.length, i ≤ j ∧ (secs[j]).contains b = true ∧
        (∀ k (hk : k < secs.length), i ≤ k → k < j → CCmp.le (secs[k]).max b = true) ∧
        ∀ (S : Type) (body : Nat → S → S) st, walkG secs body a b fuel i st =
          .ok ((List.range' i (j - i + 1)).foldl (fun st k => body k st) st) := by
  have hbb : CCmp.le b b = true := by
    simp only [Mesh.domainContains, Bool.and_eq_true] at hb
    exact IeeeOrd.le_right _ _ hb.1
  intro fuel
  induction fuel with
  | zero =>
    intro i hi hmin hf
    have hlast : i = secs.length - 1 := by omega
    have hcon : (secs[i]).contains b = true := by
      have h1 := hm.last
      have h2 : secs[secs.length - 1]'(by omega) = secs[i] := by
        congr 1; exact hlast.symm
      rw [h2] at h1
      simp only [Mesh.domainContains, Bool.and_eq_true] at hb
      simp only [Sec.contains, h1, hb.2, hmin, Bool.and_true]
    refine ⟨i, hi, le_rfl, hcon, fun k _ h1 h2 => by omega, fun S body st => ?_⟩
    unfold walkG
    have h0 : (0 : Int) ≤ (i : Int) := by omega
    simp only [h0, if_true, Int.toNat_natCast, List.getElem?_eq_getElem hi, hcon]
    simp [List.range'_succ]
  | succ fuel ih =>
    intro i hi hmin hf
    have h0 : (0 : Int) ≤ (i : Int) := by omega
    by_cases hcon : (secs[i]).contains b = true
    · refine ⟨i, hi, le_rfl, hcon, fun k _ h1 h2 => by omega, fun S body st => ?_⟩
      unfold walkG
      simp only [h0, if_true, Int.toNat_natCast, List.getElem?_eq_getElem hi, hcon]
      simp [List.range'_succ]
    · -- then b is beyond this sector, which is not the last one
      have hle : CCmp.le b (secs[i]).max = false := by
        simpa [Sec.contains, hmin] using hcon
      have hord := hm.ordered (secs[i]) (List.getElem_mem _)
      have hmax : CCmp.le (secs[i]).max b = true :=
        le_of_not_le hbb (IeeeOrd.le_right _ _ hord) hle
      have hnl : i + 1 < secs.length := by
        by_contra hge
        have hlast : i = secs.length - 1 := by omega
        have h1 := hm.last
        have h2 : secs[secs.length - 1]'(by omega) = secs[i] := by
          congr 1; exact hlast.symm
        rw [h2] at h1
        simp only [Mesh.domainContains, Bool.and_eq_true] at hb
        rw [h1, hb.2] at hle
        exact absurd hle (by simp)
      have hst := (hm.step i hnl).2
      obtain ⟨j, hj, hij, hcj, hk, he⟩ := ih (i + 1) hnl
        (IeeeOrd.trans _ _ _ hst hmax) (by omega)
      refine ⟨j, hj, by omega, hcj, ?_, ?_⟩
      · intro k hk1 hk2 hk3
        rcases Nat.eq_or_lt_of_le hk2 with h | h
        · subst h; exact hmax
        · exact hk k hk1 h hk3
      · intro S body st
        unfold walkG
        have hi' : (0 : Int) ≤ (i : Int) + 1 ∧ (i : Int) + 1 < (secs.length : Int) := by omega
        simp only [h0, if_true, Int.toNat_natCast, List.getElem?_eq_getElem hi, hcon, hab, hi',
          and_self]
        have hr : List.range' i (j - i + 1) = i :: List.range' (i + 1) (j - (i + 1) + 1) := by
          have : j - i + 1 = (j - (i + 1) + 1) + 1 := by omega
          rw [this, List.range'_succ]
        rw [hr, List.foldl_cons]
        simp only [Bool.false_eq_true, if_false]
        have := he S body (body i st)
        simp only [Nat.cast_add, Nat.cast_one] at this
        rw [← this]

/-- Walking to the left (or staying) from sector `i`. -/
theorem walkG_down [IeeeOrd K] {secs : List (Sec K)} {dmin dmax : K} (hm : IsMesh secs dmin dmax)
    (a b : K) (hab : CCmp.lt a b = false) (hb : Mesh.domainContains dmin dmax b = true) :
    ∀ (fuel i : Nat) (hi : i < secs.length),
      CCmp.le b (secs[i]).max = true → i ≤ fuel →
      ∃ j, ∃ hj : j < secs.length, j ≤ i ∧ (secs[j]).contains b = true ∧
        (∀ k (hk : k < secs.length), k ≤ i → j < k → CCmp.le b (secs[k]).min = true) ∧
        ∀ (S : Type) (body : Nat → S → S) st, walkG secs body a b fuel i st =
          .ok ((List.range' j (i - j + 1)).reverse.foldl (fun st k => body k st) st) := by
  have hbb : CCmp.le b b = true := by
    simp only [Mesh.domainContains, Bool.and_eq_true] at hb
    exact IeeeOrd.le_right _ _ hb.1
  intro fuel
  have hfirst : ∀ hi : 0 < secs.length, CCmp.le b (secs[0]).max = true →
      (secs[0]).contains b = true := by
    intro hi hmax
    have h1 := hm.first
    simp only [Mesh.domainContains, Bool.and_eq_true] at hb
    simp only [Sec.contains, h1, hb.1, hmax, Bool.and_true]
  induction fuel with
  | zero =>
    intro i hi hmax hf
    have hz : i = 0 := by omega
    subst hz
    have hcon := hfirst hi hmax
    refine ⟨0, hi, le_rfl, hcon, fun k _ h1 h2 => by omega, fun S body st => ?_⟩
    unfold walkG
    simp [List.getElem?_eq_getElem hi, hcon]
  | succ fuel ih =>
    intro i hi hmax hf
    have h0 : (0 : Int) ≤ (i : Int) := by omega
    by_cases hcon : (secs[i]).contains b = true
    · refine ⟨i, hi, le_rfl, hcon, fun k _ h1 h2 => by omega, fun S body st => ?_⟩
      unfold walkG
      simp only [h0, if_true, Int.toNat_natCast, List.getElem?_eq_getElem hi, hcon]
      simp [List.range'_succ]
    · have hle : CCmp.le (secs[i]).min b = false := by
        simpa [Sec.contains, hmax] using hcon
      have hord := hm.ordered (secs[i]) (List.getElem_mem _)
      have hmin : CCmp.le b (secs[i]).min = true :=
        le_of_not_le (IeeeOrd.le_left _ _ hord) hbb hle
      have hpos : 0 < i := by
        by_contra hz
        have hz : i = 0 := by omega
        subst hz
        exact hcon (hfirst hi hmax)
      obtain ⟨i', rfl⟩ : ∃ i', i = i' + 1 := ⟨i - 1, by omega⟩
      have hi' : i' < secs.length := by omega
      have hst := (hm.step i' hi).2
      obtain ⟨j, hj, hij, hcj, hk, he⟩ := ih i' hi'
        (IeeeOrd.trans _ _ _ hmin hst) (by omega)
      refine ⟨j, hj, by omega, hcj, ?_, ?_⟩
      · intro k hk1 hk2 hk3
        rcases Nat.eq_or_lt_of_le hk2 with h | h
        · subst h; exact hmin
        · exact hk k hk1 (by omega) hk3
      · intro S body st
        unfold walkG
        have hi2 : (0 : Int) ≤ ((i' + 1 : Nat) : Int) - 1 ∧
            ((i' + 1 : Nat) : Int) - 1 < (secs.length : Int) := by omega
        simp only [h0, if_true, Int.toNat_natCast, List.getElem?_eq_getElem hi, hcon, hab]
        have hr : (List.range' j (i' + 1 - j + 1)).reverse =
            (i' + 1) :: (List.range' j (i' - j + 1)).reverse := by
          have e1 : i' + 1 - j + 1 = (i' - j + 1) + 1 := by omega
          rw [e1, List.range'_concat, List.reverse_append]
          have : j + 1 * (i' - j + 1) = i' + 1 := by omega
          rw [this]; rfl
        rw [hr, List.foldl_cons]
        simp only [Bool.false_eq_true, if_false]
        have e2 : ((i' + 1 : Nat) : Int) - 1 = (i' : Int) := by omega
        rw [e2, ← he S body (body (i' + 1) st)]
        congr 1
        simp
        intro h; omega

/-- The sector indices visited from sector `i` to sector `j`. -/
def visited (i j : Nat) : List Nat :=
  if i ≤ j then List.range' i (j - i + 1) else (List.range' j (i - j + 1)).reverse

/-- The walk in closed form. -/
theorem walkG_closed [IeeeOrd K] {secs : List (Sec K)} {dmin dmax : K} (hm : IsMesh secs dmin dmax) (a b : K)
    (ha : Mesh.domainContains dmin dmax a = true) (hb : Mesh.domainContains dmin dmax b = true) :
    ∃ i j, ∃ hi : i < secs.length, ∃ hj : j < secs.length,
      findSector secs a = .ok (i : Int) ∧ (secs[i]).contains a = true ∧ (secs[j]).contains b = true ∧
      (CCmp.lt a b = true → i ≤ j) ∧ (CCmp.lt a b = false → j ≤ i) ∧
      ∀ (S : Type) (body : Nat → S → S) (y : S), walkG secs body a b secs.length i y = .ok ((visited i j).foldl (fun st k => body k st) y) := by
  obtain ⟨i, hi, he, hc⟩ := (C08_find_sector hm a).1 ha
  have hc' := hc
  simp only [Sec.contains, Bool.and_eq_true] at hc'
  by_cases hab : CCmp.lt a b = true
  · have hlt := (IeeeOrd.lt_iff _ _).mp hab
    have hab' : CCmp.le a b = true := le_of_not_le hlt.2.1 hlt.1 hlt.2.2
    obtain ⟨j, hj, hij, hcj, hk, hw⟩ := walkG_up hm a b hab hb secs.length i hi (IeeeOrd.trans _ _ _ hc'.2 hab') (by omega)
    refine ⟨i, j, hi, hj, he, hc, hcj, fun _ => hij, fun h => by simp [hab] at h, fun S body y => ?_⟩
    rw [hw]
    simp [visited, hij]
  · have hab0 : CCmp.lt a b = false := by simpa using hab
    have hbb : CCmp.le b b = true := by
      simp only [Mesh.domainContains, Bool.and_eq_true] at hb
      exact IeeeOrd.le_right _ _ hb.1
    have haa : CCmp.le a a = true := IeeeOrd.le_left _ _ hc'.1
    have hba : CCmp.le b a = true := by
      by_contra hne
      exact hab ((IeeeOrd.lt_iff _ _).mpr ⟨haa, hbb, by simpa using hne⟩)
    obtain ⟨j, hj, hij, hcj, hk, hw⟩ := walkG_down hm a b hab0 hb secs.length i hi (IeeeOrd.trans _ _ _ hba hc'.1) (by omega)
    refine ⟨i, j, hi, hj, he, hc, hcj, fun h => by simp [hab0] at h, fun _ => hij, fun S body y => ?_⟩
    rw [hw]
    rcases Nat.eq_or_lt_of_le hij with h | h
    · subst h; simp [visited]
    · simp [visited, show ¬ i ≤ j by omega]

end walk

/-! ### Steps that are group elements -/
section group
variable {K S : Type} [Field K] [LinearOrder K] [IsStrictOrderedRing K]

/-- The prefix products of solution operators. -/
def Pi (N : Nat → K → Equiv.Perm S) (x : K) : Nat → Equiv.Perm S
  | 0 => 1
  | k + 1 => N k x * Pi N x k

/-- Every loop body is `N k b (N k a)⁻¹`, where `N k` is constant on both sides of sector `k`. -/
structure StepsBy (secs : List (Sec K)) (N : Nat → K → Equiv.Perm S) : Prop where
  left : ∀ k (hk : k < secs.length) x, x ≤ (secs[k]).min → N k x = 1
  right : ∀ k (hk : k < secs.length) x, (secs[k]).max ≤ x → N k x = N k (secs[k]).max

theorem mesh_le {secs : List (Sec K)} {dmin dmax : K} (hm : IsMesh secs dmin dmax) {i j : Nat} (hij : i < j) (hj : j < secs.length) :
    (secs[i]'(by omega)).max ≤ (secs[j]).min := by
  have := hm.max_le_min hij hj
  simpa using this

theorem Pi_full {secs : List (Sec K)} {dmin dmax : K} (hm : IsMesh secs dmin dmax) {N : Nat → K → Equiv.Perm S} (g : StepsBy secs N) {x : K} {i : Nat}
    (hi : i < secs.length) (hx : x ≤ (secs[i]).max) (k : Nat) (hk : i + 1 + k ≤ secs.length) : Pi N x (i + 1 + k) = Pi N x (i + 1) := by
  induction k with
  | zero => rfl
  | succ k ih =>
    have hk' : i + 1 + k < secs.length := by omega
    rw [show i + 1 + (k + 1) = (i + 1 + k) + 1 by omega, Pi, ih (by omega),
      g.left _ hk' x (hx.trans (mesh_le hm (show i < i + 1 + k by omega) hk')), one_mul]

theorem Pi_left {secs : List (Sec K)} {N : Nat → K → Equiv.Perm S} (g : StepsBy secs N) {a b : K} (k : Nat)
    (hk : k ≤ secs.length) (h : ∀ i (hi : i < secs.length), i < k → (secs[i]).max ≤ a ∧ (secs[i]).max ≤ b) : Pi N a k = Pi N b k := by
  induction k with
  | zero => rfl
  | succ k ih =>
    have hk' : k < secs.length := by omega
    rw [Pi, Pi, ih (by omega) (fun i hi hik => h i hi (by omega))]
    have := h k hk' (by omega)
    rw [g.right k hk' a this.1, g.right k hk' b this.2]

theorem fold_up {secs : List (Sec K)} {dmin dmax : K} (hm : IsMesh secs dmin dmax) {N : Nat → K → Equiv.Perm S} (g : StepsBy secs N) {a b : K} {i : Nat}
    (hi : i < secs.length) (ha1 : (secs[i]).min ≤ a) (ha2 : a ≤ (secs[i]).max) (hab : a ≤ b) (d : Nat) (hd : i + d < secs.length) (y : S) :
    (List.range' i (d + 1)).foldl (fun st k => (N k b * (N k a)⁻¹) st) y = (Pi N b (i + d + 1) * (Pi N a (i + 1))⁻¹) y := by
  induction d with
  | zero =>
    have hl : Pi N a i = Pi N b i := by
      refine Pi_left g i hi.le ?_
      intro k hk hki
      have := mesh_le hm hki hi
      exact ⟨this.trans ha1, (this.trans ha1).trans hab⟩
    simp only [Nat.zero_add, List.range'_one, List.foldl_cons, List.foldl_nil, Nat.add_zero]
    rw [Pi, Pi, hl]
    congr 1; group
  | succ d ih =>
    rw [show d + 1 + 1 = (d + 1) + 1 from rfl, List.range'_concat, List.foldl_append, ih (by omega)]
    have hk : i + 1 * (d + 1) = i + (d + 1) := by omega
    simp only [List.foldl_cons, List.foldl_nil, hk]
    have hN : N (i + (d + 1)) a = 1 := g.left _ hd a (ha2.trans (mesh_le hm (by omega) hd))
    rw [show i + (d + 1) + 1 = (i + (d + 1)) + 1 from rfl, Pi, hN, inv_one, mul_one]
    rfl

theorem foldl_prod (G : Nat → Equiv.Perm S) (l : List Nat) (y : S) :
    l.foldl (fun st k => G k st) y = ((l.map G).reverse.prod) y := by
  induction l generalizing y with
  | nil => rfl
  | cons k l ih =>
    simp only [List.foldl_cons, List.map_cons, List.reverse_cons, List.prod_append, List.prod_singleton]
    rw [ih]; rfl

/-- **Key lemma**: the walk from `a` to `b` computes `Φ(b) Φ(a)⁻¹`. -/
theorem walk_eq_Phi {secs : List (Sec K)} {dmin dmax : K} (hm : IsMesh secs dmin dmax) {N : Nat → K → Equiv.Perm S} (g : StepsBy secs N)
    {a b : K} (ha : dmin ≤ a ∧ a ≤ dmax) (hb : dmin ≤ b ∧ b ≤ dmax) (body : Nat → S → S)
    (hbody : ∀ k, k < secs.length → ∀ y, body k y = (N k b * (N k a)⁻¹) y) (y : S) :
    (do let i ← findSector secs a; walkG secs body a b secs.length i y : Outcome S) =
      .ok ((Pi N b secs.length * (Pi N a secs.length)⁻¹) y) := by
  have ha' : Mesh.domainContains dmin dmax a = true := by simpa [Mesh.domainContains] using ha
  have hb' : Mesh.domainContains dmin dmax b = true := by simpa [Mesh.domainContains] using hb
  obtain ⟨i, j, hi, hj, hf, hca, hcb, hup, hdn, he⟩ := walkG_closed hm a b ha' hb'
  simp only [Sec.contains, ccmp_le, Bool.and_eq_true, decide_eq_true_eq] at hca hcb
  rw [hf, Outcome.bind_ok, he]
  have hPa : Pi N a secs.length = Pi N a (i + 1) := by
    have := Pi_full hm g hi hca.1 (secs.length - (i + 1)) (by omega)
    rwa [show i + 1 + (secs.length - (i + 1)) = secs.length by omega] at this
  have hPb : Pi N b secs.length = Pi N b (j + 1) := by
    have := Pi_full hm g hj hcb.1 (secs.length - (j + 1)) (by omega)
    rwa [show j + 1 + (secs.length - (j + 1)) = secs.length by omega] at this
  have hfold : (visited i j).foldl (fun st k => body k st) y = (visited i j).foldl (fun st k => (N k b * (N k a)⁻¹) st) y := by
    have hlt : ∀ k ∈ visited i j, k < secs.length := by
      intro k hk
      unfold visited at hk
      split at hk
      · simp only [List.mem_range'_1] at hk; omega
      · simp only [List.mem_reverse, List.mem_range'_1] at hk; omega
    revert y
    generalize visited i j = l at hlt
    induction l with
    | nil => intro y; rfl
    | cons k l ih =>
      intro y
      simp only [List.foldl_cons]
      rw [hbody k (hlt k (by simp)), ih (fun q hq => hlt q (by simp [hq]))]
  rw [hfold, hPa, hPb]
  congr 1
  by_cases hab : a < b
  · have hij := hup (by simpa using hab)
    have := fold_up hm g hi hca.2 hca.1 hab.le (j - i) (by omega) y
    simp only [visited, hij, if_true]
    rw [this, show i + (j - i) + 1 = j + 1 by omega]
  · have hba := not_lt.mp hab
    have hij := hdn (by simpa using hba)
    have hv : visited i j = (List.range' j (i - j + 1)).reverse := by
      rcases Nat.eq_or_lt_of_le hij with h | h
      · subst h; simp [visited]
      · simp [visited, show ¬ i ≤ j by omega]
    have hperm : ((List.range' j (i - j + 1)).map (fun k => N k a * (N k b)⁻¹)).reverse.prod = Pi N a (i + 1) * (Pi N b (j + 1))⁻¹ := by
      refine Equiv.ext fun z => ?_
      rw [← foldl_prod (fun k => N k a * (N k b)⁻¹), fold_up hm g hj hcb.2 hcb.1 hba (i - j) (by omega) z,
        show j + (i - j) + 1 = i + 1 by omega]
    rw [hv, foldl_prod (fun k => N k b * (N k a)⁻¹), List.map_reverse, List.reverse_reverse]
    have hinv : ∀ l : List Nat, (l.map (fun k => N k b * (N k a)⁻¹)).prod = ((l.map (fun k => N k a * (N k b)⁻¹)).reverse.prod)⁻¹ := by
      intro l
      rw [List.prod_inv_reverse]
      simp only [List.map_reverse, List.map_map, List.reverse_reverse]
      congr 1
    rw [hinv, hperm, mul_inv_rev, inv_inv]

/-! ### One sector -/
/-- `g` undoes `f` on both sides. -/
def Inverses (f g : S → S) : Prop := (∀ y, g (f y) = y) ∧ ∀ y, f (g y) = y

open Classical in
/-- `f` as a permutation -/
noncomputable def permOf (f g : S → S) : Equiv.Perm S :=
  if h : Inverses f g then ⟨f, g, h.1, h.2⟩ else 1

theorem permOf_apply {f g : S → S} (h : Inverses f g) (y : S) : permOf f g y = f y := by simp [permOf, h]
theorem permOf_inv_apply {f g : S → S} (h : Inverses f g) (y : S) : (permOf f g)⁻¹ y = g y := by
  simp only [permOf, h, dif_pos]; rfl
theorem revP_apply {rev : S → S} (h : ∀ y, rev (rev y) = y) (y : S) : permOf rev rev y = rev y := permOf_apply ⟨h, h⟩ y
theorem revP_inv {rev : S → S} (h : ∀ y, rev (rev y) = y) : (permOf rev rev)⁻¹ = permOf rev rev := by
  ext y; rw [permOf_inv_apply ⟨h, h⟩, permOf_apply ⟨h, h⟩]

/-- A sector of positive width in one of the two directions, whose transfer matrices are invertible
and `T / y` inverts `T * y`. -/
structure GSec.Good (s : GSec K S) (E : K) (useH : Bool) : Prop where
  lt : s.min < s.max
  h_eq : s.h = s.max - s.min
  dir : s.dir = .forward ∨ s.dir = .backward
  inv : ∀ δ, 0 ≤ δ → δ ≤ s.h → Inverses (s.mul E δ useH) (s.div E δ useH)

/-- The solution operator of a sector relative to its start point. -/
noncomputable def GSec.M (rev : S → S) (s : GSec K S) (E : K) (useH : Bool) (x : K) : Equiv.Perm S :=
  if s.dir = .backward then
    if s.max ≤ x then 1 else permOf rev rev * permOf (s.mul E (min (s.max - x) s.h) useH) (s.div E (min (s.max - x) s.h) useH) * permOf rev rev
  else
    if x ≤ s.min then 1 else permOf (s.mul E (min (x - s.min) s.h) useH) (s.div E (min (x - s.min) s.h) useH)

theorem sector_step {rev : S → S} {s : GSec K S} {E : K} {useH : Bool} (hrev : ∀ y, rev (rev y) = y) (g : s.Good E useH) (y : S) (a b : K) :
    s.propagate rev E useH y a b = (s.M rev E useH b * (s.M rev E useH a)⁻¹) y := by
  have hlt := g.lt
  have hh := g.h_eq
  have huni : ∀ d : K, 0 < d → Inverses (s.mul E (min d s.h) useH) (s.div E (min d s.h) useH) := fun d hd =>
    g.inv _ (le_min hd.le (by rw [hh]; linarith)) (min_le_right _ _)
  have hmin : ∀ d : K, (if s.h < d then s.h else d) = min d s.h := by
    intro d
    by_cases h : s.h < d
    · simp [h, min_eq_right h.le]
    · simp [h, min_eq_left (not_lt.mp h)]
  rcases g.dir with hd | hd
  · -- forward
    have hb : ¬ s.dir = .backward := by simp [hd]
    unfold GSec.propagate
    have hback : ∀ (z : S) (x : K), s.min < x →
        s.propagateDelta rev E useH z (s.min - x) = (s.M rev E useH x)⁻¹ z := by
      intro z x hx
      have hpos : 0 < x - s.min := by linarith
      have hneg : ¬ (0 ≤ s.min - x) := by linarith
      have hn : -(s.min - x) = x - s.min := by ring
      simp only [GSec.propagateDelta, GSec.M, hb, if_false, ccmp_le, ccmp_lt, hneg, decide_false,
        decide_eq_true_eq, Bool.false_eq_true, hn, hmin, not_le.mpr hx]
      rw [permOf_inv_apply (huni _ hpos)]
    have hfwd : ∀ (z : S) (x : K), s.min < x →
        s.propagateDelta rev E useH z (x - s.min) = (s.M rev E useH x) z := by
      intro z x hx
      have hpos : 0 < x - s.min := by linarith
      simp only [GSec.propagateDelta, GSec.M, hb, if_false, ccmp_le, ccmp_lt, hpos.le, decide_true,
        decide_eq_true_eq, if_true, hmin, not_le.mpr hx]
      rw [permOf_apply (huni _ hpos)]
    have hone : ∀ x, x ≤ s.min → s.M rev E useH x = 1 := by
      intro x hx; simp [GSec.M, hb, hx]
    have hfar : ∀ x, s.max ≤ x → s.M rev E useH x = s.M rev E useH s.max := by
      intro x hx
      have h1 : ¬ x ≤ s.min := by linarith
      have h2 : ¬ s.max ≤ s.min := by linarith
      simp only [GSec.M, hb, if_false, h1, h2]
      rw [min_eq_right (by rw [hh]; linarith), min_eq_right (by rw [hh])]
    simp only [ccmp_le, ccmp_lt]
    by_cases c1 : s.max ≤ a ∧ s.max ≤ b
    · simp [c1.1, c1.2, hfar a c1.1, hfar b c1.2]
    · by_cases c2 : a ≤ s.min ∧ b ≤ s.min
      · simp [c2.1, c2.2, hone a c2.1, hone b c2.2]
      · have hc : (!(decide (s.max ≤ a) && decide (s.max ≤ b) ||
            decide (a ≤ s.min) && decide (b ≤ s.min))) = true := by
          simp only [Bool.not_eq_true', Bool.or_eq_false_iff, Bool.and_eq_false_iff,
            decide_eq_false_iff_not]
          constructor
          · by_contra h; exact c1 (by push Not at h; exact h)
          · by_contra h; exact c2 (by push Not at h; exact h)
        rw [if_pos hc, if_pos hd]
        by_cases ha : s.min < a <;> by_cases hb' : s.min < b
        · simp only [ha, hb', decide_true, if_true]
          rw [hfwd _ _ hb', hback _ _ ha]; rfl
        · simp only [ha, hb', decide_true, decide_false, if_true, Bool.false_eq_true, if_false]
          rw [hback _ _ ha, hone b (not_lt.mp hb')]; rfl
        · simp only [ha, hb', decide_true, decide_false, if_true, Bool.false_eq_true, if_false]
          rw [hfwd _ _ hb', hone a (not_lt.mp ha)]; rfl
        · exact absurd ⟨not_lt.mp ha, not_lt.mp hb'⟩ c2
  · -- backward
    have hnf : ¬ s.dir = .forward := by simp [hd]
    unfold GSec.propagate
    have hback : ∀ (z : S) (x : K), x < s.max →
        s.propagateDelta rev E useH z (s.max - x) = (s.M rev E useH x)⁻¹ z := by
      intro z x hx
      have hpos : 0 < s.max - x := by linarith
      have hneg : ¬ (0 ≤ -(s.max - x)) := by linarith
      simp only [GSec.propagateDelta, GSec.M, hd, if_true, ccmp_le, ccmp_lt, hneg, decide_false,
        decide_eq_true_eq, Bool.false_eq_true, if_false, neg_neg, hmin, not_le.mpr hx]
      rw [mul_inv_rev, mul_inv_rev, revP_inv hrev]
      simp only [Equiv.Perm.mul_apply, revP_apply hrev]
      rw [permOf_inv_apply (huni _ hpos)]
    have hfwd : ∀ (z : S) (x : K), x < s.max →
        s.propagateDelta rev E useH z (x - s.max) = (s.M rev E useH x) z := by
      intro z x hx
      have hpos : 0 < s.max - x := by linarith
      have hn : -(x - s.max) = s.max - x := by ring
      simp only [GSec.propagateDelta, GSec.M, hd, if_true, ccmp_le, ccmp_lt, hn, hpos.le,
        decide_true, decide_eq_true_eq, hmin, not_le.mpr hx, if_false]
      simp only [Equiv.Perm.mul_apply, revP_apply hrev]
      rw [permOf_apply (huni _ hpos)]
    have hone : ∀ x, s.max ≤ x → s.M rev E useH x = 1 := by
      intro x hx; simp [GSec.M, hd, hx]
    have hfar : ∀ x, x ≤ s.min → s.M rev E useH x = s.M rev E useH s.min := by
      intro x hx
      have h1 : ¬ s.max ≤ x := by linarith
      have h2 : ¬ s.max ≤ s.min := by linarith
      simp only [GSec.M, hd, if_true, if_false, h1, h2]
      rw [min_eq_right (by rw [hh]; linarith), min_eq_right (by rw [hh])]
    simp only [ccmp_le, ccmp_lt]
    by_cases c1 : s.max ≤ a ∧ s.max ≤ b
    · simp [c1.1, c1.2, hone a c1.1, hone b c1.2]
    · by_cases c2 : a ≤ s.min ∧ b ≤ s.min
      · simp [c2.1, c2.2, hfar a c2.1, hfar b c2.2]
      · have hc : (!(decide (s.max ≤ a) && decide (s.max ≤ b) ||
            decide (a ≤ s.min) && decide (b ≤ s.min))) = true := by
          simp only [Bool.not_eq_true', Bool.or_eq_false_iff, Bool.and_eq_false_iff,
            decide_eq_false_iff_not]
          constructor
          · by_contra h; exact c1 (by push Not at h; exact h)
          · by_contra h; exact c2 (by push Not at h; exact h)
        rw [if_pos hc, if_neg hnf]
        by_cases ha : a < s.max <;> by_cases hb' : b < s.max
        · simp only [ha, hb', decide_true, if_true]
          rw [hfwd _ _ hb', hback _ _ ha]; rfl
        · simp only [ha, hb', decide_true, decide_false, if_true, Bool.false_eq_true, if_false]
          rw [hback _ _ ha, hone b (not_lt.mp hb')]; rfl
        · simp only [ha, hb', decide_true, decide_false, if_true, Bool.false_eq_true, if_false]
          rw [hfwd _ _ hb', hone a (not_lt.mp ha)]; rfl
        · exact absurd ⟨not_lt.mp ha, not_lt.mp hb'⟩ c1

/-- The solution operator of a sector relative to its left end. -/
noncomputable def GSec.N (rev : S → S) (s : GSec K S) (E : K) (useH : Bool) (x : K) : Equiv.Perm S :=
  s.M rev E useH x * (s.M rev E useH s.min)⁻¹

theorem N_step (rev : S → S) (s : GSec K S) (E : K) (useH : Bool) (a b : K) :
    s.M rev E useH b * (s.M rev E useH a)⁻¹ = s.N rev E useH b * (s.N rev E useH a)⁻¹ := by
  unfold GSec.N; group

theorem N_left {rev : S → S} {s : GSec K S} {E : K} {useH : Bool} (g : s.Good E useH) {x : K} (hx : x ≤ s.min) :
    s.N rev E useH x = 1 := by
  have hlt := g.lt
  unfold GSec.N GSec.M
  rcases g.dir with hd | hd
  · simp [hd, hx]
  · have h1 : ¬ s.max ≤ x := by linarith
    have h2 : ¬ s.max ≤ s.min := by linarith
    have e1 : min (s.max - x) s.h = s.h := min_eq_right (by rw [g.h_eq]; linarith)
    have e2 : min (s.max - s.min) s.h = s.h := min_eq_right (by rw [g.h_eq])
    simp only [hd, if_true, h1, h2, if_false, e1, e2, mul_inv_cancel]

theorem N_right {rev : S → S} {s : GSec K S} {E : K} {useH : Bool} (g : s.Good E useH) {x : K} (hx : s.max ≤ x) :
    s.N rev E useH x = s.N rev E useH s.max := by
  have hlt := g.lt
  unfold GSec.N GSec.M
  rcases g.dir with hd | hd
  · have h1 : ¬ x ≤ s.min := by linarith
    have h2 : ¬ s.max ≤ s.min := by linarith
    have e1 : min (x - s.min) s.h = s.h := min_eq_right (by rw [g.h_eq]; linarith)
    have e2 : min (s.max - s.min) s.h = s.h := min_eq_right (by rw [g.h_eq])
    simp [hd, h1, h2, e1, e2]
  · simp [hd, hx]

/-- A coupled problem whose mesh tiles the domain and whose sectors are good. -/
structure GProb.Good (P : GProb K S) (E : K) (useH : Bool) : Prop where
  mesh : IsMesh P.mesh P.xmin P.xmax
  secs : ∀ s ∈ P.secs, s.Good E useH

/-- solution operators by sector index -/
noncomputable def GProb.Nat' (rev : S → S) (P : GProb K S) (E : K) (useH : Bool) (k : Nat) (x : K) : Equiv.Perm S :=
  match P.secs[k]? with
  | none => 1
  | some s => s.N rev E useH x

/-- The fundamental operator. -/
noncomputable def GProb.Phi (rev : S → S) (P : GProb K S) (E : K) (useH : Bool) (x : K) : Equiv.Perm S :=
  Pi (P.Nat' rev E useH) x P.secs.length

theorem gmesh_length (P : GProb K S) : P.mesh.length = P.secs.length := by simp [GProb.mesh]
theorem gmesh_get (P : GProb K S) (i : Nat) (hi : i < P.secs.length) :
    P.mesh[i]'(by rw [gmesh_length]; exact hi) = (P.secs[i]).toSec := by simp [GProb.mesh]

/-- `propagateColumn` computes `Φ(b) Φ(a)⁻¹ y`. -/
theorem propagateColumn_eq_Phi {rev : S → S} (hrev : ∀ y, rev (rev y) = y) {P : GProb K S} {E : K} {useH : Bool} (g : P.Good E useH) (y : S) {a b : K}
    (ha : P.xmin ≤ a ∧ a ≤ P.xmax) (hb : P.xmin ≤ b ∧ b ≤ P.xmax) :
    P.propagateColumn rev E y a b useH = .ok ((P.Phi rev E useH b * (P.Phi rev E useH a)⁻¹) y) := by
  have ha' : Mesh.domainContains P.xmin P.xmax a = true := by simpa [Mesh.domainContains] using ha
  have hb' : Mesh.domainContains P.xmin P.xmax b = true := by simpa [Mesh.domainContains] using hb
  have hst : StepsBy P.mesh (P.Nat' rev E useH) := by
    constructor
    · intro k hk x hx
      have hk' : k < P.secs.length := by rw [← gmesh_length]; exact hk
      rw [gmesh_get P k hk'] at hx
      simp only [GProb.Nat', List.getElem?_eq_getElem hk']
      exact N_left (g.secs _ (List.getElem_mem hk')) hx
    · intro k hk x hx
      have hk' : k < P.secs.length := by rw [← gmesh_length]; exact hk
      rw [gmesh_get P k hk'] at hx ⊢
      simp only [GProb.Nat', List.getElem?_eq_getElem hk']
      exact N_right (g.secs _ (List.getElem_mem hk')) hx
  have key := walk_eq_Phi g.mesh hst ha hb (P.body rev E useH a b) (by
    intro k hk y
    have hk' : k < P.secs.length := by rw [← gmesh_length]; exact hk
    simp only [GProb.body, GProb.Nat', List.getElem?_eq_getElem hk']
    rw [sector_step hrev (g.secs _ (List.getElem_mem hk')), N_step]) y
  unfold GProb.propagateColumn GProb.Phi
  rw [ha', hb']
  rw [gmesh_length] at key
  simpa using key


end group
end Verif.Matscs
