import Verif.Lemmas.Walk

/-!
# Coupled systems: C57
-/
namespace Verif.Matscs
open Verif.Mesh Verif.Spec

/-! ### Homomorphisms between problems -/
section hom
variable {K S S' : Type} [Sub K] [Neg K] [Zero K] [Add K] [CCmp K]

/-- `φ` turns the steps of `s` into those of `s'`. -/
structure Hom (φ : S → S') (rev : S → S) (rev' : S' → S') (E : K) (useH : Bool) (s : GSec K S) (s' : GSec K S') : Prop where
  sec : s.toSec = s'.toSec
  h : s.h = s'.h
  mul : ∀ δ y, φ (s.mul E δ useH y) = s'.mul E δ useH (φ y)
  div : ∀ δ y, φ (s.div E δ useH y) = s'.div E δ useH (φ y)
  rev : ∀ y, φ (rev y) = rev' (φ y)

theorem Hom.propagateDelta {φ : S → S'} {rev : S → S} {rev' : S' → S'} {E : K} {useH : Bool} {s : GSec K S} {s' : GSec K S'}
    (h : Hom φ rev rev' E useH s s') (y : S) (δ : K) : φ (s.propagateDelta rev E useH y δ) = s'.propagateDelta rev' E useH (φ y) δ := by
  have hd : s.dir = s'.dir := by rw [h.sec]
  simp only [GSec.propagateDelta, ← hd, ← h.h]
  split <;> split <;> simp only [h.rev, h.mul, h.div]

theorem Hom.propagate {φ : S → S'} {rev : S → S} {rev' : S' → S'} {E : K} {useH : Bool} {s : GSec K S} {s' : GSec K S'}
    (h : Hom φ rev rev' E useH s s') (y : S) (a b : K) : φ (s.propagate rev E useH y a b) = s'.propagate rev' E useH (φ y) a b := by
  unfold GSec.propagate
  rw [← h.sec]
  split
  · split
    · by_cases h1 : CCmp.lt s.min a = true <;> by_cases h2 : CCmp.lt s.min b = true <;> simp only [h1, h2, if_true] <;> simp [h.propagateDelta]
    · by_cases h1 : CCmp.lt a s.max = true <;> by_cases h2 : CCmp.lt b s.max = true <;> simp only [h1, h2, if_true] <;> simp [h.propagateDelta]
  · rfl

/-- apply a function to the result -/
theorem walkG_map (φ : S → S') (secs : List (Sec K)) (body : Nat → S → S) (body' : Nat → S' → S') (a b : K)
    (hb : ∀ k, k < secs.length → ∀ y, φ (body k y) = body' k (φ y)) :
    ∀ (fuel : Nat) (i : Int) (y : S), (walkG secs body a b fuel i y).map φ = walkG secs body' a b fuel i (φ y) := by
  intro fuel
  induction fuel with
  | zero =>
    intro i y
    unfold walkG
    split
    · cases hs : secs[i.toNat]? with
      | none => rfl
      | some s =>
        have hk : i.toNat < secs.length := by
          by_contra hc
          rw [List.getElem?_eq_none (by omega)] at hs
          simp at hs
        simp only [← hb _ hk]
        split
        · rfl
        · split <;> (split <;> rfl)
    · rfl
  | succ fuel ih =>
    intro i y
    unfold walkG
    split
    · cases hs : secs[i.toNat]? with
      | none => rfl
      | some s =>
        have hk : i.toNat < secs.length := by
          by_contra hc
          rw [List.getElem?_eq_none (by omega)] at hs
          simp at hs
        simp only [← hb _ hk]
        split
        · rfl
        · split
          all_goals
            split
            · exact ih _ _
            · rfl
    · rfl

/-- Two problems with the same sectors and intertwined steps give intertwined results. -/
theorem propagateColumn_map {X : Type} (φ : S → S') (rev : S → S) (rev' : S' → S') (L : List X) (f : X → GSec K S) (f' : X → GSec K S') (xmin xmax : K)
    (E : K) (useH : Bool) (h : ∀ x ∈ L, Hom φ rev rev' E useH (f x) (f' x)) (y : S) (a b : K) :
    ((⟨L.map f, xmin, xmax⟩ : GProb K S).propagateColumn rev E y a b useH).map φ =
      (⟨L.map f', xmin, xmax⟩ : GProb K S').propagateColumn rev' E (φ y) a b useH := by
  have hmesh : (⟨L.map f, xmin, xmax⟩ : GProb K S).mesh = (⟨L.map f', xmin, xmax⟩ : GProb K S').mesh := by
    simp only [GProb.mesh, List.map_map]
    refine List.map_congr_left (fun x hx => ?_)
    exact (h x hx).sec
  unfold GProb.propagateColumn
  simp only [hmesh]
  split
  · rfl
  · cases hf : findSector (⟨L.map f', xmin, xmax⟩ : GProb K S').mesh a with
    | ok i =>
      simp only [Outcome.bind_ok]
      rw [walkG_map φ _ _ ((⟨L.map f', xmin, xmax⟩ : GProb K S').body rev' E useH a b)]
      · simp
      · intro k hk y
        have hk' : k < L.length := by simpa [GProb.mesh] using hk
        simp only [GProb.body, List.getElem?_map, List.getElem?_eq_getElem hk', Option.map_some]
        exact (h _ (List.getElem_mem hk')).propagate y a b
    | throws e => rfl
    | ub e => rfl
    | timeout => rfl

end hom

/-! ### Columns -/
section cols
variable {n r : Nat} {K : Type} [Field K]

@[ext] theorem Yn.ext' {u v : Yn n r K} (h1 : u.y = v.y) (h2 : u.yE = v.yE) : u = v := by
  cases u; cases v; cases h1; cases h2; rfl

/-- columnwise linear combination -/
def Yn.lin (α β : K) (u v : Yn n r K) : Yn n r K := ⟨α • u.y + β • v.y, α • u.yE + β • v.yE⟩

/-- column `j` of a matrix -/
def matCol (m : Matrix (Fin n ⊕ Fin n) (Fin r) K) (j : Fin r) : Matrix (Fin n ⊕ Fin n) (Fin 1) K := Matrix.of fun i _ => m i j

/-- `Y::col(j)` — y.h:119-121. -/
def Yn.col (u : Yn n r K) (j : Fin r) : Yn n 1 K := ⟨matCol u.y j, matCol u.yE j⟩

theorem Yn.reverse_reverse (u : Yn n r K) : u.reverse.reverse = u := by
  apply Yn.ext' <;> ext i j <;> cases i <;> simp [Yn.reverse, revRows]

theorem Yn.lin_reverse (α β : K) (u v : Yn n r K) : (Yn.lin α β u v).reverse = Yn.lin α β u.reverse v.reverse := by
  apply Yn.ext' <;> ext i j <;> cases i <;> simp [Yn.reverse, revRows, Yn.lin] <;> ring

theorem Tn.mul_lin (A : Tn n K) (α β : K) (u v : Yn n r K) : A.mul (Yn.lin α β u v) = Yn.lin α β (A.mul u) (A.mul v) := by
  apply Yn.ext'
  · simp only [Tn.mul, Yn.lin, Matrix.mul_add, Matrix.mul_smul]
  · simp only [Tn.mul, Yn.lin, Matrix.mul_add, Matrix.mul_smul, smul_add]
    abel

theorem Tn.div_lin (A : Tn n K) (α β : K) (u v : Yn n r K) : A.div (Yn.lin α β u v) = Yn.lin α β (A.div u) (A.div v) := by
  apply Yn.ext'
  · simp only [Tn.div, Yn.lin, Matrix.mul_add, Matrix.mul_smul]
  · simp only [Tn.div, Yn.lin, Matrix.mul_add, Matrix.mul_smul, smul_sub]
    abel

theorem matCol_mul (A : Matrix (Fin n ⊕ Fin n) (Fin n ⊕ Fin n) K) (m : Matrix (Fin n ⊕ Fin n) (Fin r) K) (j : Fin r) :
    matCol (A * m) j = A * matCol m j := by
  ext i k; simp [matCol, Matrix.mul_apply]
theorem matCol_add (m m' : Matrix (Fin n ⊕ Fin n) (Fin r) K) (j : Fin r) : matCol (m + m') j = matCol m j + matCol m' j := rfl
theorem matCol_sub (m m' : Matrix (Fin n ⊕ Fin n) (Fin r) K) (j : Fin r) : matCol (m - m') j = matCol m j - matCol m' j := rfl

theorem Tn.mul_col (A : Tn n K) (u : Yn n r K) (j : Fin r) : (A.mul u).col j = A.mul (u.col j) := by
  apply Yn.ext' <;> simp only [Tn.mul, Yn.col, matCol_add, matCol_mul]

theorem Tn.div_col (A : Tn n K) (u : Yn n r K) (j : Fin r) : (A.div u).col j = A.div (u.col j) := by
  apply Yn.ext' <;> simp only [Tn.div, Yn.col, matCol_sub, matCol_mul]

theorem Yn.reverse_col (u : Yn n r K) (j : Fin r) : u.reverse.col j = (u.col j).reverse := by
  apply Yn.ext' <;> ext i k <;> cases i <;> simp [Yn.reverse, revRows, Yn.col, matCol]

/-- With an invertible matrix, `T / y` undoes `T * y` and conversely, E-derivatives included. -/
theorem Tn.inverses (A : Tn n K) (h : IsUnit A.t.det) : Inverses (S := Yn n r K) A.mul A.div := by
  have h1 : A.t⁻¹ * A.t = 1 := Matrix.nonsing_inv_mul _ h
  have h2 : A.t * A.t⁻¹ = 1 := Matrix.mul_nonsing_inv _ h
  constructor
  · intro u
    apply Yn.ext'
    · simp only [Tn.mul, Tn.div, ← Matrix.mul_assoc, h1, Matrix.one_mul]
    · simp only [Tn.mul, Tn.div]
      rw [← Matrix.mul_assoc A.t⁻¹ A.t u.y, h1, Matrix.one_mul, Matrix.mul_add, ← Matrix.mul_assoc A.t⁻¹ A.t u.yE, h1, Matrix.one_mul]
      abel
  · intro u
    apply Yn.ext'
    · simp only [Tn.mul, Tn.div, ← Matrix.mul_assoc, h2, Matrix.one_mul]
    · simp only [Tn.mul, Tn.div]
      rw [Matrix.mul_sub, ← Matrix.mul_assoc A.t A.t⁻¹ u.yE, h2, Matrix.one_mul, ← Matrix.mul_assoc A.t A.t⁻¹ (A.dt * _), h2, Matrix.one_mul]
      abel

end cols

/-! ## C57 -/

/-- **C57.** `Matscs::propagateColumn` and `Matscs::propagate` throw exactly when `a` or `b` is outside the domain (only the
IEEE comparison laws are used; any column type); otherwise they return a value and never index outside the sector array. -/
theorem C57_domain {K S : Type} [Sub K] [Neg K] [Zero K] [Add K] [CCmp K] [IeeeOrd K] (rev : S → S) (dArg : Nat → K → S → S → K → K)
    (P : GProb K S) (hm : IsMesh P.mesh P.xmin P.xmax) (E : K) (y : S) (a b : K) (useH : Bool) :
    ((P.propagateColumn rev E y a b useH).isThrow = true ↔
      ¬ (CCmp.le P.xmin a = true ∧ CCmp.le a P.xmax = true ∧ CCmp.le P.xmin b = true ∧ CCmp.le b P.xmax = true)) ∧
    ((P.propagateColumn rev E y a b useH).isThrow = false → ∃ r, P.propagateColumn rev E y a b useH = .ok r) ∧
    ((P.propagate rev dArg E y a b useH).isThrow = (P.propagateColumn rev E y a b useH).isThrow) ∧
    ((P.propagate rev dArg E y a b useH).isThrow = false → ∃ r, P.propagate rev dArg E y a b useH = .ok r) := by
  have hlen : P.mesh.length = P.secs.length := by simp [GProb.mesh]
  unfold GProb.propagateColumn GProb.propagate
  by_cases hin : Mesh.domainContains P.xmin P.xmax a = true ∧ Mesh.domainContains P.xmin P.xmax b = true
  · obtain ⟨i, j, hi, hj, hf, -, -, -, -, he⟩ := walkG_closed hm a b hin.1 hin.2
    simp only [hin.1, hin.2, Bool.not_true, Bool.or_self, Bool.false_eq_true, if_false, hf, Outcome.bind_ok, ← hlen, he]
    have h1 := hin.1
    have h2 := hin.2
    simp only [Mesh.domainContains, Bool.and_eq_true] at h1 h2
    refine ⟨⟨fun h => by simp [Outcome.isThrow] at h, fun h => absurd ⟨h1.1, h1.2, h2.1, h2.2⟩ h⟩, fun _ => ⟨_, rfl⟩, rfl, fun _ => ⟨_, rfl⟩⟩
  · have hcond : (!(Mesh.domainContains P.xmin P.xmax a) || !(Mesh.domainContains P.xmin P.xmax b)) = true := by
      by_contra hc
      apply hin
      simpa using hc
    simp only [hcond, if_true]
    refine ⟨⟨fun _ h => hin ?_, fun _ => rfl⟩, fun h => by simp [Outcome.isThrow] at h, rfl, fun h => by simp [Outcome.isThrow] at h⟩
    simp [Mesh.domainContains, h.1, h.2.1, h.2.2.1, h.2.2.2]

section thms
variable {n r : Nat} {K : Type} [Field K] [LinearOrder K] [IsStrictOrderedRing K]

/-- the mesh of a coupled problem -/
def CProb.mesh (P : CProb n K) : List (Sec K) := P.secs.map CSec.toSec

theorem CProb.toG_mesh (P : CProb n K) : (P.toG r).mesh = P.mesh := by
  simp only [GProb.mesh, CProb.toG, CProb.mesh, List.map_map]
  rfl

theorem CProb.ok (P : CProb n K) (hm : IsMesh P.mesh P.xmin P.xmax) (E : K) (y : Yn n r K) (useH : Bool) {a b : K}
    (ha : P.xmin ≤ a ∧ a ≤ P.xmax) (hb : P.xmin ≤ b ∧ b ≤ P.xmax) : ∃ u, P.propagateColumn E y a b useH = .ok u := by
  have hm' : IsMesh (P.toG r).mesh (P.toG r).xmin (P.toG r).xmax := by rw [P.toG_mesh]; exact hm
  have h := C57_domain Yn.reverse (fun _ _ _ _ _ => 0) (P.toG r) hm' E y a b useH
  refine h.2.1 ?_
  by_contra hc
  have hc : ((P.toG r).propagateColumn Yn.reverse E y a b useH).isThrow = true := by simpa using hc
  refine (h.1.mp hc) ?_
  simp only [ccmp_le, decide_eq_true_eq]
  exact ⟨ha.1, ha.2, hb.1, hb.2⟩

/-- pairs of columns moving through the same sector -/
noncomputable def CSec.pair (r : Nat) (s : CSec n K) : GSec K (Yn n r K × Yn n r K) :=
  { s.toSec with
    h := s.h
    mul := fun E δ u y => ((s.tr E δ u).mul y.1, (s.tr E δ u).mul y.2)
    div := fun E δ u y => ((s.tr E δ u).div y.1, (s.tr E δ u).div y.2) }

/-- **C57.** `propagateColumn` is linear in the column block, for every dimension, number of columns, mesh and every choice of
transfer matrices. -/
theorem C57_linear (P : CProb n K) (hm : IsMesh P.mesh P.xmin P.xmax) (E : K) (useH : Bool) (α β : K) (u v : Yn n r K) {a b : K}
    (ha : P.xmin ≤ a ∧ a ≤ P.xmax) (hb : P.xmin ≤ b ∧ b ≤ P.xmax) :
    ∃ ru rv, P.propagateColumn E u a b useH = .ok ru ∧ P.propagateColumn E v a b useH = .ok rv ∧
      P.propagateColumn E (Yn.lin α β u v) a b useH = .ok (Yn.lin α β ru rv) := by
  obtain ⟨ru, hu⟩ := P.ok hm E u useH ha hb
  obtain ⟨rv, hv⟩ := P.ok hm E v useH ha hb
  refine ⟨ru, rv, hu, hv, ?_⟩
  let rev2 : Yn n r K × Yn n r K → Yn n r K × Yn n r K := fun y => (y.1.reverse, y.2.reverse)
  have h1 := propagateColumn_map (K := K) Prod.fst rev2 Yn.reverse P.secs (CSec.pair r) (CSec.toG r) P.xmin P.xmax E useH
    (fun x _ => ⟨rfl, rfl, fun _ _ => rfl, fun _ _ => rfl, fun _ => rfl⟩) (u, v) a b
  have h2 := propagateColumn_map (K := K) Prod.snd rev2 Yn.reverse P.secs (CSec.pair r) (CSec.toG r) P.xmin P.xmax E useH
    (fun x _ => ⟨rfl, rfl, fun _ _ => rfl, fun _ _ => rfl, fun _ => rfl⟩) (u, v) a b
  have h3 := propagateColumn_map (K := K) (fun y : Yn n r K × Yn n r K => Yn.lin α β y.1 y.2) rev2 Yn.reverse P.secs (CSec.pair r) (CSec.toG r) P.xmin P.xmax E useH
    (fun x _ => ⟨rfl, rfl, fun _ _ => (Tn.mul_lin _ _ _ _ _).symm, fun _ _ => (Tn.div_lin _ _ _ _ _).symm, fun _ => (Yn.lin_reverse _ _ _ _).symm⟩) (u, v) a b
  have hu' : (⟨P.secs.map (CSec.toG r), P.xmin, P.xmax⟩ : GProb K (Yn n r K)).propagateColumn Yn.reverse E u a b useH = .ok ru := hu
  have hv' : (⟨P.secs.map (CSec.toG r), P.xmin, P.xmax⟩ : GProb K (Yn n r K)).propagateColumn Yn.reverse E v a b useH = .ok rv := hv
  rw [show ((u, v) : Yn n r K × Yn n r K).1 = u from rfl, hu'] at h1
  rw [show ((u, v) : Yn n r K × Yn n r K).2 = v from rfl, hv'] at h2
  cases hp : (⟨P.secs.map (CSec.pair r), P.xmin, P.xmax⟩ : GProb K (Yn n r K × Yn n r K)).propagateColumn rev2 E (u, v) a b useH with
  | ok w =>
    rw [hp] at h1 h2 h3
    have h1 : w.1 = ru := by injection h1
    have h2 : w.2 = rv := by injection h2
    rw [← h1, ← h2]
    exact h3.symm
  | throws e => rw [hp] at h1; cases h1
  | ub e => rw [hp] at h1; cases h1
  | timeout => rw [hp] at h1; cases h1

/-- **C57.** Propagating a block of columns is propagating each column (any arguments, also failing ones). -/
theorem C57_columns (P : CProb n K) (E : K) (useH : Bool) (u : Yn n r K) (j : Fin r) (a b : K) :
    (P.propagateColumn E u a b useH).map (fun w => w.col j) = P.propagateColumn E (u.col j) a b useH :=
  propagateColumn_map (K := K) (fun w : Yn n r K => w.col j) Yn.reverse Yn.reverse P.secs (CSec.toG r) (CSec.toG 1) P.xmin P.xmax E useH
    (fun x _ => ⟨rfl, rfl, fun _ _ => Tn.mul_col _ _ _, fun _ _ => Tn.div_col _ _ _, fun _ => Yn.reverse_col _ _⟩) u a b

/-- **C57.** The values returned by `propagate` are those of `propagateColumn`, whatever the angle increments are. -/
theorem C57_propagate_values {S : Type} (rev : S → S) (dArg : Nat → K → S → S → K → K) (P : GProb K S) (E : K) (y : S) (a b : K) (useH : Bool) :
    (P.propagate rev dArg E y a b useH).map Prod.fst = P.propagateColumn rev E y a b useH := by
  have hs : ∀ (s : GSec K S) (d : S → S → K → K) (y : S), (s.propagateArg rev d E useH y a b).1 = s.propagate rev E useH y a b := by
    intro s d y
    unfold GSec.propagateArg GSec.propagate
    dsimp only
    split
    · split
      · by_cases h1 : CCmp.lt s.min a = true <;> by_cases h2 : CCmp.lt s.min b = true <;> simp only [h1, h2, if_true] <;> simp
      · by_cases h1 : CCmp.lt a s.max = true <;> by_cases h2 : CCmp.lt b s.max = true <;> simp only [h1, h2, if_true] <;> simp
    · rfl
  unfold GProb.propagate GProb.propagateColumn
  split
  · rfl
  · cases hf : findSector P.mesh a with
    | ok i =>
      simp only [Outcome.bind_ok]
      rw [walkG_map Prod.fst _ _ (P.body rev E useH a b)]
      intro k hk st
      have hk' : k < P.secs.length := by simpa [GProb.mesh] using hk
      simp only [GProb.bodyArg, GProb.body, List.getElem?_eq_getElem hk']
      exact hs _ _ _
    | throws e => rfl
    | ub e => rfl
    | timeout => rfl

/-- A coupled problem with invertible transfer matrices. -/
structure CProb.Good (P : CProb n K) (E : K) (useH : Bool) : Prop where
  mesh : IsMesh P.mesh P.xmin P.xmax
  lt : ∀ s ∈ P.secs, s.min < s.max
  h_eq : ∀ s ∈ P.secs, s.h = s.max - s.min
  dir : ∀ s ∈ P.secs, s.dir = .forward ∨ s.dir = .backward
  inv : ∀ s ∈ P.secs, ∀ δ, 0 ≤ δ → δ ≤ s.h → IsUnit (s.tr E δ useH).t.det

theorem CProb.Good.toG {P : CProb n K} {E : K} {useH : Bool} (g : P.Good E useH) : (P.toG r).Good E useH where
  mesh := by rw [P.toG_mesh]; exact g.mesh
  secs := by
    intro s hs
    simp only [CProb.toG, List.mem_map] at hs
    obtain ⟨c, hc, rfl⟩ := hs
    exact ⟨g.lt c hc, g.h_eq c hc, g.dir c hc, fun δ h1 h2 => Tn.inverses _ (g.inv c hc δ h1 h2)⟩

/-- **C57.** With invertible transfer matrices, propagating from `a` to `b` and on to `c` is propagating from `a` to `c`;
in particular going to `b` and back returns the start, E-derivatives included. -/
theorem C57_composes_reversible {P : CProb n K} {E : K} {useH : Bool} (g : P.Good E useH) (y : Yn n r K) {a b c : K}
    (ha : P.xmin ≤ a ∧ a ≤ P.xmax) (hb : P.xmin ≤ b ∧ b ≤ P.xmax) (hc : P.xmin ≤ c ∧ c ≤ P.xmax) :
    ∃ u w, P.propagateColumn E y a b useH = .ok u ∧ P.propagateColumn E u b c useH = .ok w ∧ P.propagateColumn E y a c useH = .ok w ∧
      P.propagateColumn E u b a useH = .ok y := by
  have gg := g.toG (r := r)
  have H := fun (z : Yn n r K) {p q : K} (hp : P.xmin ≤ p ∧ p ≤ P.xmax) (hq : P.xmin ≤ q ∧ q ≤ P.xmax) =>
    propagateColumn_eq_Phi Yn.reverse_reverse gg z hp hq
  refine ⟨_, _, H y ha hb, H _ hb hc, ?_, ?_⟩
  · refine (H y ha hc).trans ?_
    rw [← Equiv.Perm.mul_apply]
    congr 2
    group
  · refine (H _ hb ha).trans ?_
    rw [← Equiv.Perm.mul_apply]
    have : (GProb.Phi Yn.reverse (P.toG r) E useH a * (GProb.Phi Yn.reverse (P.toG r) E useH b)⁻¹ *
      (GProb.Phi Yn.reverse (P.toG r) E useH b * (GProb.Phi Yn.reverse (P.toG r) E useH a)⁻¹)) = 1 := by group
    rw [this]; rfl

/-! ### The matrix Wronskian -/

/-- `uᵀ v' - u'ᵀ v` for two blocks of columns. -/
def wronskian (u v : Matrix (Fin n ⊕ Fin n) (Fin r) K) : Matrix (Fin r) (Fin r) K :=
  Matrix.of fun i j => ∑ k, (u (.inl k) i * v (.inr k) j - u (.inr k) i * v (.inl k) j)

/-- The symplectic form. -/
def J (n : Nat) (K : Type) [Field K] : Matrix (Fin n ⊕ Fin n) (Fin n ⊕ Fin n) K := Matrix.fromBlocks 0 1 (-1) 0

theorem wronskian_eq (u v : Matrix (Fin n ⊕ Fin n) (Fin r) K) : wronskian u v = u.transpose * J n K * v := by
  ext i j
  simp only [wronskian, J, Matrix.of_apply, Matrix.mul_apply, Fintype.sum_sum_type, Matrix.transpose_apply]
  rw [Finset.sum_sub_distrib]
  simp [Matrix.one_apply, sub_eq_add_neg, add_comm]

theorem wronskian_rev (u v : Matrix (Fin n ⊕ Fin n) (Fin r) K) : wronskian (revRows u) (revRows v) = -wronskian u v := by
  ext i j
  simp only [wronskian, revRows, Matrix.of_apply, Matrix.neg_apply, ← Finset.sum_neg_distrib]
  refine Finset.sum_congr rfl (fun k _ => by ring)

theorem wronskian_mul {A : Matrix (Fin n ⊕ Fin n) (Fin n ⊕ Fin n) K} (h : A.transpose * J n K * A = J n K) (u v : Matrix (Fin n ⊕ Fin n) (Fin r) K) :
    wronskian (A * u) (A * v) = wronskian u v := by
  simp only [wronskian_eq, Matrix.transpose_mul]
  calc u.transpose * A.transpose * J n K * (A * v) = u.transpose * (A.transpose * J n K * A) * v := by simp only [Matrix.mul_assoc]
    _ = u.transpose * J n K * v := by rw [h]

theorem J_sq : J n K * J n K = -1 := by
  simp [J, Matrix.fromBlocks_multiply, ← Matrix.fromBlocks_one, Matrix.fromBlocks_neg]

theorem symplectic_unit {A : Matrix (Fin n ⊕ Fin n) (Fin n ⊕ Fin n) K} (h : A.transpose * J n K * A = J n K) : IsUnit A.det := by
  refine Matrix.isUnit_det_of_left_inverse (B := -(J n K * A.transpose * J n K)) ?_
  rw [Matrix.neg_mul, Matrix.mul_assoc, Matrix.mul_assoc, ← Matrix.mul_assoc A.transpose, h, J_sq, neg_neg]

theorem wronskian_inv {A : Matrix (Fin n ⊕ Fin n) (Fin n ⊕ Fin n) K} (h : A.transpose * J n K * A = J n K) (u v : Matrix (Fin n ⊕ Fin n) (Fin r) K) :
    wronskian (A⁻¹ * u) (A⁻¹ * v) = wronskian u v := by
  have hu := symplectic_unit h
  rw [← wronskian_mul h (A⁻¹ * u) (A⁻¹ * v), ← Matrix.mul_assoc, ← Matrix.mul_assoc, Matrix.mul_nonsing_inv _ hu, Matrix.one_mul, Matrix.one_mul]

/-- **C57.** With symplectic transfer matrices (what a symmetric potential matrix gives) the matrix Wronskian of any two blocks of solutions is
the same at `a` and at `b`; a self-adjoint boundary condition stays self-adjoint. -/
theorem C57_wronskian_conserved {P : CProb n K} (hm : IsMesh P.mesh P.xmin P.xmax) (E : K) (useH : Bool) (hh : ∀ s ∈ P.secs, 0 ≤ s.h)
    (hT : ∀ s ∈ P.secs, ∀ δ, 0 ≤ δ → δ ≤ s.h → (s.tr E δ useH).t.transpose * J n K * (s.tr E δ useH).t = J n K)
    (u v : Yn n r K) {a b : K} (ha : P.xmin ≤ a ∧ a ≤ P.xmax) (hb : P.xmin ≤ b ∧ b ≤ P.xmax) :
    ∃ ru rv, P.propagateColumn E u a b useH = .ok ru ∧ P.propagateColumn E v a b useH = .ok rv ∧ wronskian ru.y rv.y = wronskian u.y v.y := by
  have ha' : Mesh.domainContains (P.toG r).xmin (P.toG r).xmax a = true := by
    have : Mesh.domainContains P.xmin P.xmax a = true := by simpa [Mesh.domainContains] using ha
    exact this
  have hb' : Mesh.domainContains (P.toG r).xmin (P.toG r).xmax b = true := by
    have : Mesh.domainContains P.xmin P.xmax b = true := by simpa [Mesh.domainContains] using hb
    exact this
  have hm' : IsMesh (P.toG r).mesh (P.toG r).xmin (P.toG r).xmax := by rw [P.toG_mesh]; exact hm
  have hlen : (P.toG r).mesh.length = (P.toG r).secs.length := by simp [GProb.mesh]
  obtain ⟨i, j, hi, hj, hf, -, -, -, -, he⟩ := walkG_closed hm' a b ha' hb'
  have form : ∀ y : Yn n r K, P.propagateColumn E y a b useH =
      .ok ((visited i j).foldl (fun st k => (P.toG r).body Yn.reverse E useH a b k st) y) := by
    intro y
    unfold CProb.propagateColumn GProb.propagateColumn
    simp only [ha', hb', Bool.not_true, Bool.or_self, Bool.false_eq_true, if_false, hf, Outcome.bind_ok, ← hlen, he]
  refine ⟨_, _, form u, form v, ?_⟩
  -- one step
  have hd : ∀ s ∈ P.secs, ∀ (δ : K) (p q : Yn n r K),
      wronskian ((s.toG r).propagateDelta Yn.reverse E useH p δ).y ((s.toG r).propagateDelta Yn.reverse E useH q δ).y = wronskian p.y q.y := by
    intro s hs δ p q
    have hr : ∀ ε : K, 0 ≤ ε → 0 ≤ (if s.h < ε then s.h else ε) ∧ (if s.h < ε then s.h else ε) ≤ s.h := by
      intro ε he
      split
      · exact ⟨hh s hs, le_rfl⟩
      · exact ⟨he, not_lt.mp (by assumption)⟩
    unfold GSec.propagateDelta
    simp only [ccmp_le, ccmp_lt, decide_eq_true_eq, CSec.toG]
    by_cases hbk : s.dir = .backward
    · simp only [hbk, if_true, Yn.reverse]
      rw [wronskian_rev]
      generalize -δ = ε
      split
      · next h => simp only [Tn.mul, if_true]
                  rw [wronskian_mul (hT s hs _ (hr ε h).1 (hr ε h).2), wronskian_rev, neg_neg]
      · next h => simp only [Tn.div]
                  rw [wronskian_inv (hT s hs _ (hr (-ε) (by linarith)).1 (hr (-ε) (by linarith)).2), wronskian_rev, neg_neg]
    · simp only [hbk, if_false]
      generalize δ = ε
      split
      · next h => simp only [Tn.mul, if_true]
                  rw [wronskian_mul (hT s hs _ (hr ε h).1 (hr ε h).2)]
      · next h => simp only [Tn.div]
                  rw [wronskian_inv (hT s hs _ (hr (-ε) (by linarith)).1 (hr (-ε) (by linarith)).2)]
  have hs : ∀ s ∈ P.secs, ∀ (p q : Yn n r K),
      wronskian ((s.toG r).propagate Yn.reverse E useH p a b).y ((s.toG r).propagate Yn.reverse E useH q a b).y = wronskian p.y q.y := by
    intro s hs p q
    unfold GSec.propagate
    split
    · split
      · by_cases h1 : CCmp.lt (s.toG r).min a = true <;> by_cases h2 : CCmp.lt (s.toG r).min b = true <;> simp only [h1, h2, if_true] <;> simp [hd s hs]
      · by_cases h1 : CCmp.lt a (s.toG r).max = true <;> by_cases h2 : CCmp.lt b (s.toG r).max = true <;> simp only [h1, h2, if_true] <;> simp [hd s hs]
    · rfl
  have hfold : ∀ (l : List Nat) (p q : Yn n r K), wronskian (l.foldl (fun st k => (P.toG r).body Yn.reverse E useH a b k st) p).y
      (l.foldl (fun st k => (P.toG r).body Yn.reverse E useH a b k st) q).y = wronskian p.y q.y := by
    intro l
    induction l with
    | nil => intro p q; rfl
    | cons k l ih =>
      intro p q
      simp only [List.foldl_cons]
      rw [ih]
      unfold GProb.body
      cases hk : (P.toG r).secs[k]? with
      | none => rfl
      | some s' =>
        have := List.mem_of_getElem? hk
        simp only [CProb.toG, List.mem_map] at this
        obtain ⟨s, hsm, rfl⟩ := this
        exact hs s hsm p q
  exact hfold _ _ _

/-! ### Non-vacuity -/

/-- a symmetric coupling of two equations -/
def exW : Matrix (Fin 2) (Fin 2) ℚ := !![1, 2; 2, 3]

/-- drift and kick: symplectic because `exW` is symmetric -/
def exTn (δ : ℚ) : Tn 2 ℚ := ⟨Matrix.fromBlocks 1 (δ • 1) (δ • exW) (1 + (δ * δ) • exW), Matrix.fromBlocks 0 0 (δ • 1) ((δ * δ) • 1)⟩

theorem exTn_symplectic (δ : ℚ) : (exTn δ).t.transpose * J 2 ℚ * (exTn δ).t = J 2 ℚ := by
  have hW : exW.transpose = exW := by ext i j; fin_cases i <;> fin_cases j <;> rfl
  simp only [exTn, J, Matrix.fromBlocks_transpose, Matrix.transpose_add, Matrix.transpose_smul, hW, Matrix.transpose_one, Matrix.fromBlocks_multiply]
  simp only [Matrix.mul_zero, Matrix.mul_one, Matrix.one_mul, Matrix.mul_neg, Matrix.neg_mul, Matrix.zero_mul, zero_add, add_zero, Matrix.smul_mul, Matrix.mul_smul,
    Matrix.mul_add, Matrix.add_mul, neg_add]
  congr 1
  all_goals
    try simp only [smul_smul, smul_add, smul_neg, neg_smul]
    try rw [show δ * (δ * δ) = δ * δ * δ by ring]
    abel

/-- two equations, two sectors in opposite directions -/
def exC : CProb 2 ℚ where
  secs := [⟨⟨0, 1, .forward⟩, 1, fun _ δ _ => exTn δ⟩, ⟨⟨1, 3, .backward⟩, 2, fun _ δ _ => exTn δ⟩]
  xmin := 0
  xmax := 3

theorem exC_good (E : ℚ) (useH : Bool) : exC.Good E useH where
  mesh := by
    refine ⟨⟨by simp [exC, CProb.mesh, bounds], by simp [exC, CProb.mesh, bounds], by simp [exC, CProb.mesh, bounds], ?_⟩, ?_⟩
    · intro i hi
      have : i = 0 := by simp [exC, CProb.mesh, bounds] at hi; omega
      subst this
      left; simp [exC, CProb.mesh, bounds]
    · intro s hs
      simp only [exC, CProb.mesh, List.map_cons, List.map_nil, List.mem_cons, List.not_mem_nil, or_false] at hs
      rcases hs with rfl | rfl <;> simp
  lt := by intro s hs; simp only [exC, List.mem_cons, List.not_mem_nil, or_false] at hs; rcases hs with rfl | rfl <;> norm_num
  h_eq := by intro s hs; simp only [exC, List.mem_cons, List.not_mem_nil, or_false] at hs; rcases hs with rfl | rfl <;> norm_num
  dir := by intro s hs; simp only [exC, List.mem_cons, List.not_mem_nil, or_false] at hs; rcases hs with rfl | rfl <;> simp
  inv := by
    intro s hs δ _ _
    simp only [exC, List.mem_cons, List.not_mem_nil, or_false] at hs
    rcases hs with rfl | rfl <;> exact symplectic_unit (exTn_symplectic δ)

/-- Non-vacuity of C57: a coupled problem of two equations meets all hypotheses, from inside the first to inside the second sector. -/
example (y : Yn 2 2 ℚ) : (∃ u w, exC.propagateColumn 5 y (1/2) 2 true = .ok u ∧ exC.propagateColumn 5 u 2 (1/3) true = .ok w ∧
      exC.propagateColumn 5 y (1/2) (1/3) true = .ok w ∧ exC.propagateColumn 5 u 2 (1/2) true = .ok y) ∧
    ∃ ru rv, exC.propagateColumn 5 y (1/2) 2 true = .ok ru ∧ exC.propagateColumn 5 y.reverse (1/2) 2 true = .ok rv ∧
      wronskian ru.y rv.y = wronskian y.y y.reverse.y := by
  have b : ∀ x : ℚ, 0 ≤ x → x ≤ 3 → exC.xmin ≤ x ∧ x ≤ exC.xmax := fun x h1 h2 => ⟨h1, h2⟩
  refine ⟨C57_composes_reversible (exC_good 5 true) y (b _ (by norm_num) (by norm_num)) (b _ (by norm_num) (by norm_num)) (b _ (by norm_num) (by norm_num)),
    C57_wronskian_conserved (exC_good 5 true).mesh 5 true ?_ ?_ _ _ (b _ (by norm_num) (by norm_num)) (b _ (by norm_num) (by norm_num))⟩
  · intro s hs; rw [(exC_good 5 true).h_eq s hs]; linarith [(exC_good 5 true).lt s hs]
  · intro s hs δ _ _
    simp only [exC, List.mem_cons, List.not_mem_nil, or_false] at hs
    rcases hs with rfl | rfl <;> exact exTn_symplectic δ

end thms
end Verif.Matscs
