import Verif.Props.MatscsEigen

/-!
# `Matscs::propagatePsi` (C59)
-/
namespace Verif.Matscs
open Verif.Mesh Verif.Spec

section thms
variable {n : Nat} {K : Type} [Field K] [LinearOrder K] [IsStrictOrderedRing K]

/-- the solution block -/
def Yn.val {r : Nat} (u : Yn n r K) : Matrix (Fin n) (Fin r) K := Matrix.of fun i j => u.y (.inl i) j
/-- the block of first derivatives -/
def Yn.der {r : Nat} (u : Yn n r K) : Matrix (Fin n) (Fin r) K := Matrix.of fun i j => u.y (.inr i) j
/-- What `propagatePsi` transports: `y (y')⁻¹`. -/
noncomputable def Yn.psi (u : Yn n n K) : Matrix (Fin n) (Fin n) K := u.val * u.der⁻¹

theorem Yn.val_mul (A : Tn n K) (u : Yn n n K) : (A.mul u).val = A.t.toBlocks₁₁ * u.val + A.t.toBlocks₁₂ * u.der := by
  ext i j
  simp [Yn.val, Yn.der, Tn.mul, Matrix.mul_apply, Fintype.sum_sum_type, Matrix.toBlocks₁₁, Matrix.toBlocks₁₂]
theorem Yn.der_mul (A : Tn n K) (u : Yn n n K) : (A.mul u).der = A.t.toBlocks₂₁ * u.val + A.t.toBlocks₂₂ * u.der := by
  ext i j
  simp [Yn.val, Yn.der, Tn.mul, Matrix.mul_apply, Fintype.sum_sum_type, Matrix.toBlocks₂₁, Matrix.toBlocks₂₂]
theorem Yn.val_rev (u : Yn n n K) : u.reverse.val = u.val := by ext i j; simp [Yn.val, Yn.reverse, revRows]
theorem Yn.der_rev (u : Yn n n K) : u.reverse.der = -u.der := by ext i j; simp [Yn.der, Yn.reverse, revRows]

theorem neg_inv' (A : Matrix (Fin n) (Fin n) K) : (-A)⁻¹ = -A⁻¹ := by
  by_cases h : IsUnit A.det
  · refine Matrix.inv_eq_left_inv ?_
    rw [neg_mul_neg, Matrix.nonsing_inv_mul _ h]
  · rw [Matrix.nonsing_inv_apply_not_isUnit _ h, neg_zero, Matrix.nonsing_inv_apply_not_isUnit]
    rw [Matrix.det_neg]
    intro hc
    exact h (isUnit_of_mul_isUnit_right hc)

/-- The Möbius step: `ψ(T u) = (T₁₂ + T₁₁ ψ)(T₂₂ + T₂₁ ψ)⁻¹`. -/
theorem psi_mul (A : Tn n K) (u : Yn n n K) (hu : IsUnit u.der.det) :
    (A.mul u).psi = (A.t.toBlocks₁₂ + A.t.toBlocks₁₁ * u.psi) * (A.t.toBlocks₂₂ + A.t.toBlocks₂₁ * u.psi)⁻¹ := by
  have h1 : u.der * u.der⁻¹ = 1 := Matrix.mul_nonsing_inv _ hu
  have h2 : u.der⁻¹ * u.der = 1 := Matrix.nonsing_inv_mul _ hu
  have e1 : A.t.toBlocks₁₂ + A.t.toBlocks₁₁ * u.psi = (A.mul u).val * u.der⁻¹ := by
    rw [Yn.val_mul, Yn.psi, Matrix.add_mul, Matrix.mul_assoc, Matrix.mul_assoc, h1, Matrix.mul_one, add_comm]
  have e2 : A.t.toBlocks₂₂ + A.t.toBlocks₂₁ * u.psi = (A.mul u).der * u.der⁻¹ := by
    rw [Yn.der_mul, Yn.psi, Matrix.add_mul, Matrix.mul_assoc, Matrix.mul_assoc, h1, Matrix.mul_one, add_comm]
  rw [e1, e2, Matrix.mul_inv_rev, Matrix.nonsing_inv_nonsing_inv _ hu, Matrix.mul_assoc, ← Matrix.mul_assoc u.der⁻¹, h2, Matrix.one_mul]
  rfl

theorem psi_rev (u : Yn n n K) : u.reverse.psi = -u.psi := by
  rw [Yn.psi, Yn.psi, Yn.val_rev, Yn.der_rev, neg_inv', Matrix.mul_neg]

/-- **C59 (negation, general).** The sign of the step is ignored inside a sector: stepping by `-δ` does exactly what stepping by `δ` does,
for every sector, energy and matrix; the formula written for backward steps is never used. -/
theorem C59_step_sign_ignored (s : CSec n K) (E : K) (psi : Matrix (Fin n) (Fin n) K) (delta : K) :
    s.psiDelta E psi (-delta) = s.psiDelta E psi delta := by
  have habs : ∀ d : K, (if decide (0 ≤ d) = true then d else -d) = |d| := by
    intro d
    by_cases h : 0 ≤ d
    · simp [h, abs_of_nonneg h]
    · simp [h, abs_of_neg (not_le.mp h)]
  unfold CSec.psiDelta
  simp only [ccmp_le, habs]
  have : ∀ d : K, |if s.dir = .backward then -d else d| = |d| := by intro d; split <;> simp
  rw [this, this, abs_neg]

/-- **C59 (negation).** `propagatePsi` checks nothing: for every start point outside the domain the code reads `sectors[-1]`. -/
theorem C59_outside_is_ub (P : CProb n K) (hm : IsMesh P.mesh P.xmin P.xmax) (E : K) (psi : Matrix (Fin n) (Fin n) K) (a b : K)
    (ha : ¬ (P.xmin ≤ a ∧ a ≤ P.xmax)) : (P.propagatePsi E psi a b).isUb = true := by
  have hf := (C08_find_sector hm a).2 (by simpa [Mesh.domainContains] using ha)
  unfold CProb.propagatePsi
  rw [show P.secs.map CSec.toSec = P.mesh from rfl, hf, Outcome.bind_ok]
  unfold walkG
  cases P.secs.length <;> simp [Outcome.isUb]

/-- One equation, free particle on [0,1]: `t = [[1, δ], [0, 1]]`. -/
def exFree : CProb 1 ℚ where
  secs := [⟨⟨0, 1, .forward⟩, 1, fun _ δ _ => ⟨Matrix.fromBlocks 1 (δ • 1) 0 1, 0⟩⟩]
  xmin := 0
  xmax := 1

theorem exFree_mesh : IsMesh exFree.mesh exFree.xmin exFree.xmax := by
  refine ⟨⟨by simp [exFree, CProb.mesh, bounds], by simp [exFree, CProb.mesh, bounds], by simp [exFree, CProb.mesh, bounds], ?_⟩, ?_⟩
  · intro i hi
    simp [exFree, CProb.mesh, bounds] at hi
  · intro s hs
    simp only [exFree, CProb.mesh, List.map_cons, List.map_nil, List.mem_cons, List.not_mem_nil, or_false] at hs
    subst hs; simp

theorem exFree_psi (psi : Matrix (Fin 1) (Fin 1) ℚ) (a b : ℚ) (hab : (a = 0 ∧ b = 1) ∨ (a = 1 ∧ b = 0)) : exFree.propagatePsi 0 psi a b = .ok (1 + psi) := by
  rcases hab with ⟨rfl, rfl⟩ | ⟨rfl, rfl⟩ <;>
  simp [CProb.propagatePsi, exFree, findSector, findSectorLoop, Sec.contains, walkG, CProb.bodyPsi, CSec.propagatePsi, CSec.psiDelta, show ¬ (1 : ℚ) ≤ 0 by norm_num]

/-- **C59 (negation, concrete).** For `y'' = -E y` at `E = 0` on [0,1]: from `ψ = 1` the call from 0 to 1 gives 2 and the call back from 1 to 0 gives 3,
not 1. The problem is well formed (`exFree_mesh`) and its transfer matrices are exact. -/
theorem C59_fails : ∃ (P : CProb 1 ℚ) (psi : Matrix (Fin 1) (Fin 1) ℚ), P.Good 0 true ∧
    ∃ r, P.propagatePsi 0 psi 0 1 = .ok r ∧ ∃ r', P.propagatePsi 0 r 1 0 = .ok r' ∧ r' ≠ psi := by
  refine ⟨exFree, 1, ⟨exFree_mesh, ?_, ?_, ?_, ?_⟩, 1 + 1, exFree_psi 1 0 1 (Or.inl ⟨rfl, rfl⟩), 1 + (1 + 1), exFree_psi _ 1 0 (Or.inr ⟨rfl, rfl⟩), ?_⟩
  · intro s hs; simp only [exFree, List.mem_cons, List.not_mem_nil, or_false] at hs; subst hs; norm_num
  · intro s hs; simp only [exFree, List.mem_cons, List.not_mem_nil, or_false] at hs; subst hs; norm_num
  · intro s hs; simp only [exFree, List.mem_cons, List.not_mem_nil, or_false] at hs; subst hs; simp
  · intro s hs δ _ _; simp only [exFree, List.mem_cons, List.not_mem_nil, or_false] at hs; subst hs
    simp [Matrix.det_fromBlocks_zero₂₁]
  · intro h
    have h2 := congrFun (congrFun h 0) 0
    simp only [Matrix.add_apply, Matrix.one_apply_eq] at h2
    norm_num at h2

/-! ### What does hold -/

/-- Inside one sector `Φ` is the sector's own solution operator. -/
theorem Phi_sector {P : CProb n K} {E : K} {useH : Bool} (g : P.Good E useH) {k : Nat} (hk : k < P.secs.length) {x1 x2 : K}
    (h1 : (P.secs[k]).min ≤ x1 ∧ x1 ≤ (P.secs[k]).max) (h2 : (P.secs[k]).min ≤ x2 ∧ x2 ≤ (P.secs[k]).max) (y : Yn n n K) :
    ((P.toG n).Phi Yn.reverse E useH x2) y =
      ((P.secs[k]).toG n).propagate Yn.reverse E useH ((P.toG n).Phi Yn.reverse E useH x1 y) x1 x2 := by
  have gg := g.toG (r := n)
  have hlen : (P.toG n).secs.length = P.secs.length := by simp [CProb.toG]
  have hlen' : (P.toG n).mesh.length = P.secs.length := by simp [gmesh_length, hlen]
  have hst : StepsBy (P.toG n).mesh ((P.toG n).Nat' Yn.reverse E useH) := by
    constructor
    · intro k hk x hx
      have hk' : k < (P.toG n).secs.length := by rw [← gmesh_length]; exact hk
      rw [gmesh_get _ k hk'] at hx
      simp only [GProb.Nat', List.getElem?_eq_getElem hk']
      exact N_left (gg.secs _ (List.getElem_mem hk')) hx
    · intro k hk x hx
      have hk' : k < (P.toG n).secs.length := by rw [← gmesh_length]; exact hk
      rw [gmesh_get _ k hk'] at hx ⊢
      simp only [GProb.Nat', List.getElem?_eq_getElem hk']
      exact N_right (gg.secs _ (List.getElem_mem hk')) hx
  have hkm : k < (P.toG n).mesh.length := by rw [hlen']; exact hk
  have hks : k < (P.toG n).secs.length := by rw [hlen]; exact hk
  have hget : (P.toG n).mesh[k] = (P.secs[k]).toSec := by
    rw [gmesh_get _ k hks]; simp [CProb.toG, CSec.toG]
  have hgs : (P.toG n).secs[k] = (P.secs[k]).toG n := by simp [CProb.toG]
  have full : ∀ x, (P.secs[k]).min ≤ x ∧ x ≤ (P.secs[k]).max → (P.toG n).Phi Yn.reverse E useH x =
      ((P.secs[k]).toG n).N Yn.reverse E useH x * Pi ((P.toG n).Nat' Yn.reverse E useH) x k := by
    intro x hx
    have := Pi_full (x := x) gg.mesh hst hkm (by rw [hget]; exact hx.2) (P.secs.length - (k + 1)) (by omega)
    rw [show k + 1 + (P.secs.length - (k + 1)) = (P.toG n).secs.length by rw [hlen]; omega] at this
    rw [GProb.Phi, this, Pi]
    congr 1
    simp only [GProb.Nat', List.getElem?_eq_getElem hks, hgs]
  have hl : Pi ((P.toG n).Nat' Yn.reverse E useH) x2 k = Pi ((P.toG n).Nat' Yn.reverse E useH) x1 k := by
    refine Pi_left hst k hkm.le ?_
    intro i hi hik
    have := mesh_le gg.mesh hik hkm
    rw [hget] at this
    exact ⟨this.trans h2.1, this.trans h1.1⟩
  have hgood := gg.secs _ (List.getElem_mem hks)
  rw [hgs] at hgood
  rw [sector_step Yn.reverse_reverse hgood, N_step, full x1 h1, full x2 h2, hl]
  simp only [← Equiv.Perm.mul_apply]
  congr 1
  group

/-- One forward sector, entered at its left end. -/
theorem psi_step_forward {s : CSec n K} {E : K} (hlt : s.min < s.max) (hh : s.h = s.max - s.min) (hd : s.dir = .forward) (u : Yn n n K) (hu : IsUnit u.der.det)
    {a b : K} (ha : a ≤ s.min) (hb : s.min < b) :
    s.propagatePsi E u.psi a b = ((s.toG n).propagate Yn.reverse E true u s.min (min b s.max)).psi := by
  have hm : s.min < min b s.max := lt_min hb hlt
  have hpos : 0 < b - s.min := sub_pos.mpr hb
  have hpos' : 0 < min b s.max - s.min := sub_pos.mpr hm
  have hnb : ¬ s.dir = .backward := by simp [hd]
  have hclip : (if s.h < b - s.min then s.h else b - s.min) = min b s.max - s.min := by
    rcases le_total b s.max with h | h
    · rw [min_eq_left h, if_neg (by rw [hh]; linarith)]
    · rw [min_eq_right h]
      rcases eq_or_lt_of_le h with h | h
      · subst h; rw [if_neg (by rw [hh]; linarith)]
      · rw [if_pos (by rw [hh]; linarith), hh]
  have hclip' : (if s.h < min b s.max - s.min then s.h else min b s.max - s.min) = min b s.max - s.min := by
    rw [if_neg (by rw [hh]; have := min_le_right b s.max; linarith)]
  have c1 : ¬ (s.max ≤ a) := by linarith
  have c2 : ¬ (b ≤ s.min) := by linarith
  have c3 : ¬ (s.max ≤ s.min) := by linarith
  have c4 : ¬ (min b s.max ≤ s.min) := by linarith
  have lhs : s.propagatePsi E u.psi a b = ((s.tr E (min b s.max - s.min) true).mul u).psi := by
    unfold CSec.propagatePsi CSec.psiDelta
    simp only [ccmp_le, ccmp_lt, c1, c2, hd, not_lt.mpr ha, hb, hpos.le, decide_true, decide_false, Bool.false_and, Bool.and_false, Bool.or_false, Bool.not_false, if_true,
      Bool.false_eq_true, if_false, reduceCtorEq, one_smul, decide_eq_true_eq, hclip, hpos']
    exact (psi_mul _ _ hu).symm
  have rhs : (s.toG n).propagate Yn.reverse E true u s.min (min b s.max) = (s.tr E (min b s.max - s.min) true).mul u := by
    unfold GSec.propagate GSec.propagateDelta
    simp only [CSec.toG, ccmp_le, ccmp_lt, c3, c4, hd, lt_irrefl, hm, hpos'.le, decide_true, decide_false, Bool.false_and, Bool.and_false, Bool.or_false, Bool.not_false, if_true,
      Bool.false_eq_true, if_false, reduceCtorEq, decide_eq_true_eq, hclip']
  rw [lhs, rhs]

/-- One backward sector, entered at its right end. -/
theorem psi_step_backward {s : CSec n K} {E : K} (hlt : s.min < s.max) (hh : s.h = s.max - s.min) (hd : s.dir = .backward) (u : Yn n n K) (hu : IsUnit u.der.det)
    {a b : K} (ha : s.max ≤ a) (hb : b < s.max) :
    s.propagatePsi E u.psi a b = ((s.toG n).propagate Yn.reverse E true u s.max (max b s.min)).psi := by
  have hm : max b s.min < s.max := max_lt hb hlt
  have hpos : 0 < s.max - b := sub_pos.mpr hb
  have hpos' : 0 < s.max - max b s.min := sub_pos.mpr hm
  have hclip : (if s.h < s.max - b then s.h else s.max - b) = s.max - max b s.min := by
    rcases le_total s.min b with h | h
    · rw [max_eq_left h, if_neg (by rw [hh]; linarith)]
    · rw [max_eq_right h]
      rcases eq_or_lt_of_le h with h | h
      · subst h; rw [if_neg (by rw [hh]; linarith)]
      · rw [if_pos (by rw [hh]; linarith), hh]
  have hclip' : (if s.h < s.max - max b s.min then s.h else s.max - max b s.min) = s.max - max b s.min := by
    rw [if_neg (by rw [hh]; have := le_max_right b s.min; linarith)]
  have c1 : ¬ (a ≤ s.min) := by linarith
  have c2 : ¬ (s.max ≤ b) := by linarith
  have c3 : ¬ (s.max ≤ s.min) := by linarith
  have c4 : ¬ (s.max ≤ max b s.min) := by linarith
  have n1 : -(b - s.max) = s.max - b := by ring
  have n2 : -(max b s.min - s.max) = s.max - max b s.min := by ring
  have hur : IsUnit u.reverse.der.det := by
    rw [Yn.der_rev, Matrix.det_neg]
    exact (IsUnit.pow _ isUnit_one.neg).mul hu
  have lhs : s.propagatePsi E u.psi a b = (((s.tr E (s.max - max b s.min) true).mul u.reverse).reverse).psi := by
    rw [psi_rev, psi_mul _ _ hur, psi_rev]
    unfold CSec.propagatePsi CSec.psiDelta
    simp only [ccmp_le, ccmp_lt, c1, c2, hd, not_lt.mpr ha, hb, n1, hpos.le, decide_true, decide_false, Bool.false_and, Bool.and_false, Bool.or_false, Bool.false_or, Bool.not_false, if_true,
      Bool.false_eq_true, if_false, reduceCtorEq, decide_eq_true_eq, hclip, hpos', neg_smul, one_smul, Matrix.mul_neg]
  have rhs : (s.toG n).propagate Yn.reverse E true u s.max (max b s.min) = ((s.tr E (s.max - max b s.min) true).mul u.reverse).reverse := by
    unfold GSec.propagate GSec.propagateDelta
    simp only [CSec.toG, ccmp_le, ccmp_lt, c3, c4, hd, lt_irrefl, hm, n2, hpos'.le, decide_true, decide_false, Bool.false_and, Bool.and_false, Bool.or_false, Bool.false_or, Bool.not_false, if_true,
      Bool.false_eq_true, if_false, reduceCtorEq, decide_eq_true_eq, hclip']
  rw [lhs, rhs]

theorem psi_walk_up {P : CProb n K} {E : K} (g : P.Good E true) (y : Yn n n K) {a b : K}
    (hfwd : ∀ s ∈ P.secs, s.min < b → s.dir = .forward)
    (hinv : ∀ x, a ≤ x → x ≤ b → IsUnit ((P.toG n).Phi Yn.reverse E true x y).der.det) (i : Nat) (hi : i < P.secs.length)
    (ha : (P.secs[i]).min = a) :
    ∀ d, ∀ hd : i + d < P.secs.length, (P.secs[i + d]).min ≤ b →
      (List.range' i (d + 1)).foldl (fun st k => P.bodyPsi E a b k st) ((P.toG n).Phi Yn.reverse E true a y).psi =
        ((P.toG n).Phi Yn.reverse E true (min b (P.secs[i + d]).max) y).psi := by
  have hmesh : ∀ k (hk : k < P.secs.length), P.mesh[k]'(by simpa [CProb.mesh] using hk) = (P.secs[k]).toSec := by intro k hk; simp [CProb.mesh]
  have hml : P.mesh.length = P.secs.length := by simp [CProb.mesh]
  -- one sector
  have one : ∀ k (hk : k < P.secs.length), a ≤ (P.secs[k]).min → (P.secs[k]).min ≤ b →
      P.bodyPsi E a b k ((P.toG n).Phi Yn.reverse E true (P.secs[k]).min y).psi = ((P.toG n).Phi Yn.reverse E true (min b (P.secs[k]).max) y).psi := by
    intro k hk hak hkb
    have hmem := List.getElem_mem hk
    have hlt := g.lt _ hmem
    simp only [CProb.bodyPsi, List.getElem?_eq_getElem hk]
    rcases eq_or_lt_of_le hkb with hb | hb
    · have h1 : a ≤ (P.secs[k]).min := hak
      rw [← hb, min_eq_left hlt.le]
      unfold CSec.propagatePsi
      simp [h1]
    · rw [psi_step_forward hlt (g.h_eq _ hmem) (hfwd _ hmem hb) _ (hinv _ hak hkb) hak hb,
        ← Phi_sector g hk ⟨le_rfl, hlt.le⟩ ⟨(lt_min hb hlt).le, min_le_right _ _⟩]
  intro d
  induction d with
  | zero =>
    intro hd hmin
    simp only [Nat.add_zero, Nat.zero_add, List.range'_one, List.foldl_cons, List.foldl_nil] at hmin ⊢
    have := one i hi ha.ge hmin
    rwa [ha] at this
  | succ d ih =>
    intro hd hmin
    have hst := mesh_le g.mesh (show i + d < i + (d + 1) by omega) (by rw [hml]; exact hd)
    rw [hmesh _ (by omega), hmesh _ hd] at hst
    have hlt := g.lt _ (List.getElem_mem (show i + d < P.secs.length by omega))
    have heq : (P.secs[i + d]).max = (P.secs[i + (d + 1)]).min := by
      have := g.mesh.step (i + d) (by rw [hml]; omega)
      have h2 := this.2
      simp only [ccmp_le, decide_eq_true_eq] at h2
      rw [hmesh _ (by omega), hmesh _ (by omega)] at h2
      exact le_antisymm hst h2
    have hd' : (P.secs[i + d]).min ≤ b := by linarith
    rw [show d + 1 + 1 = (d + 1) + 1 from rfl, List.range'_concat, List.foldl_append, ih (by omega) hd']
    simp only [List.foldl_cons, List.foldl_nil, Nat.one_mul]
    rw [min_eq_right (by linarith), heq]
    refine one _ hd ?_ hmin
    have h0 : (P.secs[i]).min ≤ (P.secs[i + d]).min := by
      rcases Nat.eq_zero_or_pos d with h | h
      · subst h; exact le_rfl
      · have h1 := mesh_le g.mesh (show i < i + d by omega) (by rw [hml]; omega)
        rw [hmesh _ (by omega), hmesh _ (by omega)] at h1
        exact (g.lt _ (List.getElem_mem hi)).le.trans h1
    rw [ha] at h0
    linarith

/-- **C59 (partial).** What does hold: from the left end of the domain to `b`, when all sectors entered are forward ones and `y'` stays invertible,
`propagatePsi` follows the solutions: it maps `y(a) y'(a)⁻¹` to `y(b) y'(b)⁻¹` with `y(b)` the block returned by `propagateColumn`. -/
theorem C59_from_left_partial {P : CProb n K} {E : K} (g : P.Good E true) (y : Yn n n K) {b : K} (hb : P.xmin ≤ b ∧ b ≤ P.xmax)
    (hfwd : ∀ s ∈ P.secs, s.min < b → s.dir = .forward)
    (hinv : ∀ x u, P.xmin ≤ x → x ≤ b → P.propagateColumn E y P.xmin x true = .ok u → IsUnit u.der.det) :
    ∃ u, P.propagateColumn E y P.xmin b true = .ok u ∧ P.propagatePsi E y.psi P.xmin b = .ok u.psi := by
  have gg := g.toG (r := n)
  have hml : P.mesh.length = P.secs.length := by simp [CProb.mesh]
  have hmesh : ∀ k (hk : k < P.secs.length), P.mesh[k]'(by simpa [CProb.mesh] using hk) = (P.secs[k]).toSec := by intro k hk; simp [CProb.mesh]
  have hxm : P.xmin ≤ P.xmin ∧ P.xmin ≤ P.xmax := ⟨le_rfl, hb.1.trans hb.2⟩
  have hval : ∀ x, P.xmin ≤ x → x ≤ P.xmax → P.propagateColumn E y P.xmin x true =
      .ok ((P.toG n).Phi Yn.reverse E true x (((P.toG n).Phi Yn.reverse E true P.xmin)⁻¹ y)) := fun x h1 h2 =>
    propagateColumn_eq_Phi Yn.reverse_reverse gg y hxm ⟨h1, h2⟩
  refine ⟨_, hval b hb.1 hb.2, ?_⟩
  have ha' : Mesh.domainContains P.xmin P.xmax P.xmin = true := by simpa [Mesh.domainContains] using hxm.2
  have hb' : Mesh.domainContains P.xmin P.xmax b = true := by simpa [Mesh.domainContains] using hb
  obtain ⟨i, j, hi, hj, hf, hca, hcb, hup, hdn, he⟩ := walkG_closed g.mesh P.xmin b ha' hb'
  have hi' : i < P.secs.length := by rw [← hml]; exact hi
  have hj' : j < P.secs.length := by rw [← hml]; exact hj
  simp only [Sec.contains, ccmp_le, Bool.and_eq_true, decide_eq_true_eq] at hca hcb
  rw [hmesh i hi'] at hca
  rw [hmesh j hj'] at hcb
  have h0 : P.xmin ≤ (P.secs[i]).min := by
    have hf0 := g.mesh.first
    rw [hmesh 0 (by omega)] at hf0
    rcases Nat.eq_zero_or_pos i with h | h
    · subst h; exact hf0.ge
    · have h1 := mesh_le g.mesh h hi
      rw [hmesh _ (by omega), hmesh _ (by omega)] at h1
      have := g.lt _ (List.getElem_mem (show 0 < P.secs.length by omega))
      linarith
  have hij : i ≤ j := by
    by_contra hlt
    have hlt := not_le.mp hlt
    have h1 := mesh_le g.mesh hlt hi
    rw [hmesh _ (by omega), hmesh _ (by omega)] at h1
    have h2 := g.lt _ (List.getElem_mem hj')
    -- b ≤ max_j ≤ min_i ≤ xmin ≤ b and min_j < max_j, so sector j lies left of the domain
    have hf0 := g.mesh.first
    rw [hmesh 0 (by omega)] at hf0
    have : P.xmin ≤ (P.secs[j]).min := by
      rcases Nat.eq_zero_or_pos j with h | h
      · subst h; exact hf0.ge
      · have h3 := mesh_le g.mesh h hj
        rw [hmesh _ (by omega), hmesh _ (by omega)] at h3
        have := g.lt _ (List.getElem_mem (show 0 < P.secs.length by omega))
        linarith
    linarith [hca.2]
  unfold CProb.propagatePsi
  rw [show P.secs.map CSec.toSec = P.mesh from rfl, hf, Outcome.bind_ok, ← hml, he]
  have hw := psi_walk_up g (((P.toG n).Phi Yn.reverse E true P.xmin)⁻¹ y) (a := P.xmin) (b := b) hfwd
    (fun x h1 h2 => hinv x _ h1 h2 (hval x h1 (h2.trans hb.2))) i hi' (le_antisymm hca.2 h0) (j - i) (by omega)
    (by have : i + (j - i) = j := by omega
        simp only [this]; exact hcb.2)
  have hstart : (P.toG n).Phi Yn.reverse E true P.xmin (((P.toG n).Phi Yn.reverse E true P.xmin)⁻¹ y) = y := by simp
  rw [hstart] at hw
  have e : i + (j - i) = j := by omega
  simp only [e] at hw
  rw [min_eq_left hcb.1] at hw
  simp only [visited, hij, if_true]
  rw [hw]

theorem psi_walk_down {P : CProb n K} {E : K} (g : P.Good E true) (y : Yn n n K) {a b : K}
    (hbwd : ∀ s ∈ P.secs, b < s.max → s.dir = .backward)
    (hinv : ∀ x, b ≤ x → x ≤ a → IsUnit ((P.toG n).Phi Yn.reverse E true x y).der.det) (j : Nat) :
    ∀ d, ∀ hd : j + d < P.secs.length, (P.secs[j + d]).max = a → b ≤ (P.secs[j]).max →
      (List.range' j (d + 1)).reverse.foldl (fun st k => P.bodyPsi E a b k st) ((P.toG n).Phi Yn.reverse E true a y).psi =
        ((P.toG n).Phi Yn.reverse E true (max b (P.secs[j]).min) y).psi := by
  have hmesh : ∀ k (hk : k < P.secs.length), P.mesh[k]'(by simpa [CProb.mesh] using hk) = (P.secs[k]).toSec := by intro k hk; simp [CProb.mesh]
  have hml : P.mesh.length = P.secs.length := by simp [CProb.mesh]
  have one : ∀ k (hk : k < P.secs.length), (P.secs[k]).max ≤ a → b ≤ (P.secs[k]).max →
      P.bodyPsi E a b k ((P.toG n).Phi Yn.reverse E true (P.secs[k]).max y).psi = ((P.toG n).Phi Yn.reverse E true (max b (P.secs[k]).min) y).psi := by
    intro k hk hak hkb
    have hmem := List.getElem_mem hk
    have hlt := g.lt _ hmem
    simp only [CProb.bodyPsi, List.getElem?_eq_getElem hk]
    rcases eq_or_lt_of_le hkb with hb | hb
    · have h1 : (P.secs[k]).max ≤ a := hak
      rw [hb, max_eq_left hlt.le]
      unfold CSec.propagatePsi
      simp [h1]
    · rw [psi_step_backward hlt (g.h_eq _ hmem) (hbwd _ hmem hb) _ (hinv _ hkb hak) hak hb,
        ← Phi_sector g hk ⟨hlt.le, le_rfl⟩ ⟨le_max_right _ _, (max_lt hb hlt).le⟩]
  intro d
  induction d generalizing j with
  | zero =>
    intro hd hmax hb
    simp only [Nat.add_zero, Nat.zero_add, List.range'_one, List.reverse_cons, List.reverse_nil, List.nil_append, List.foldl_cons, List.foldl_nil] at hmax ⊢
    have := one j hd hmax.le hb
    rwa [hmax] at this
  | succ d ih =>
    intro hd hmax hb
    have hj1 : j + 1 < P.secs.length := by omega
    have hst := g.mesh.step j (by rw [hml]; omega)
    simp only [ccmp_le, decide_eq_true_eq] at hst
    have h2 := hst.1
    have h3 := hst.2
    rw [hmesh _ hj1, hmesh _ (by omega)] at h2 h3
    have hmj : (P.secs[j]).max = (P.secs[j + 1]).min := le_antisymm (by linarith) (by linarith)
    have hlt := g.lt _ (List.getElem_mem hj1)
    have e : j + 1 + d = j + (d + 1) := by omega
    have key := ih (j + 1) (by omega) (by simp only [e]; exact hmax) (by linarith)
    rw [List.range'_succ, List.reverse_cons, List.foldl_append, key]
    simp only [List.foldl_cons, List.foldl_nil]
    rw [max_eq_right (by linarith), ← hmj]
    refine one j (by omega) ?_ hb
    have h4 := mesh_le g.mesh (show j < j + (d + 1) by omega) (by rw [hml]; exact hd)
    rw [hmesh _ (by omega), hmesh _ hd] at h4
    have h5 := g.lt _ (List.getElem_mem hd)
    linarith

/-- **C59 (partial).** The mirror image: from the right end of the domain down to `b` through backward sectors. -/
theorem C59_from_right_partial {P : CProb n K} {E : K} (g : P.Good E true) (y : Yn n n K) {b : K} (hb : P.xmin ≤ b ∧ b ≤ P.xmax)
    (hbwd : ∀ s ∈ P.secs, b < s.max → s.dir = .backward)
    (hinv : ∀ x u, b ≤ x → x ≤ P.xmax → P.propagateColumn E y P.xmax x true = .ok u → IsUnit u.der.det) :
    ∃ u, P.propagateColumn E y P.xmax b true = .ok u ∧ P.propagatePsi E y.psi P.xmax b = .ok u.psi := by
  have gg := g.toG (r := n)
  have hml : P.mesh.length = P.secs.length := by simp [CProb.mesh]
  have hmesh : ∀ k (hk : k < P.secs.length), P.mesh[k]'(by simpa [CProb.mesh] using hk) = (P.secs[k]).toSec := by intro k hk; simp [CProb.mesh]
  have hxm : P.xmin ≤ P.xmax ∧ P.xmax ≤ P.xmax := ⟨hb.1.trans hb.2, le_rfl⟩
  have hval : ∀ x, P.xmin ≤ x → x ≤ P.xmax → P.propagateColumn E y P.xmax x true =
      .ok ((P.toG n).Phi Yn.reverse E true x (((P.toG n).Phi Yn.reverse E true P.xmax)⁻¹ y)) := fun x h1 h2 =>
    propagateColumn_eq_Phi Yn.reverse_reverse gg y hxm ⟨h1, h2⟩
  refine ⟨_, hval b hb.1 hb.2, ?_⟩
  have ha' : Mesh.domainContains P.xmin P.xmax P.xmax = true := by simpa [Mesh.domainContains] using hxm.1
  have hb' : Mesh.domainContains P.xmin P.xmax b = true := by simpa [Mesh.domainContains] using hb
  obtain ⟨i, j, hi, hj, hf, hca, hcb, hup, hdn, he⟩ := walkG_closed g.mesh P.xmax b ha' hb'
  have hi' : i < P.secs.length := by rw [← hml]; exact hi
  have hj' : j < P.secs.length := by rw [← hml]; exact hj
  simp only [Sec.contains, ccmp_le, Bool.and_eq_true, decide_eq_true_eq] at hca hcb
  rw [hmesh i hi'] at hca
  rw [hmesh j hj'] at hcb
  have hl : ∀ k (hk : k < P.secs.length), (P.secs[k]).max ≤ P.xmax := by
    intro k hk
    have hf0 := g.mesh.last
    have hlast : P.secs.length - 1 < P.secs.length := by omega
    simp only [hml] at hf0
    rw [hmesh _ hlast] at hf0
    rcases Nat.eq_or_lt_of_le (show k ≤ P.secs.length - 1 by omega) with h | h
    · subst h; exact hf0.le
    · have h1 := mesh_le g.mesh h (by rw [hml]; exact hlast)
      rw [hmesh _ (by omega), hmesh _ (by omega)] at h1
      have := g.lt _ (List.getElem_mem hlast)
      linarith
  have hij : j ≤ i := hdn (by simpa using hb.2)
  have hv : visited i j = (List.range' j (i - j + 1)).reverse := by
    rcases Nat.eq_or_lt_of_le hij with h | h
    · subst h; simp [visited]
    · simp [visited, show ¬ i ≤ j by omega]
  unfold CProb.propagatePsi
  rw [show P.secs.map CSec.toSec = P.mesh from rfl, hf, Outcome.bind_ok, ← hml, he]
  have e : j + (i - j) = i := by omega
  have hw := psi_walk_down g (((P.toG n).Phi Yn.reverse E true P.xmax)⁻¹ y) (a := P.xmax) (b := b) hbwd
    (fun x h1 h2 => hinv x _ h1 h2 (hval x (hb.1.trans h1) h2)) j (i - j) (by omega)
    (by simp only [e]; exact le_antisymm (hl i hi') hca.1) hcb.1
  have hstart : (P.toG n).Phi Yn.reverse E true P.xmax (((P.toG n).Phi Yn.reverse E true P.xmax)⁻¹ y) = y := by simp
  rw [hstart] at hw
  rw [max_eq_left hcb.2] at hw
  rw [hv, hw]

theorem exFree_column (y : Yn 1 1 ℚ) (x : ℚ) (h0 : 0 ≤ x) (h1 : x ≤ 1) :
    ∃ A : Tn 1 ℚ, A.t.toBlocks₂₁ = 0 ∧ A.t.toBlocks₂₂ = 1 ∧ exFree.propagateColumn 0 y 0 x true = .ok (A.mul y) := by
  have hf : findSector (exFree.toG 1).mesh (0 : ℚ) = .ok 0 := by
    simp [exFree, CProb.toG, GProb.mesh, CSec.toG, findSector, findSectorLoop, Sec.contains]
  have hmesh : (exFree.toG 1).mesh = [⟨0, 1, .forward⟩] := rfl
  have hda : Mesh.domainContains (exFree.toG 1).xmin (exFree.toG 1).xmax 0 = true := by simp [exFree, CProb.toG, Mesh.domainContains]
  have hdx : Mesh.domainContains (exFree.toG 1).xmin (exFree.toG 1).xmax x = true := by simp [exFree, CProb.toG, Mesh.domainContains, h0, h1]
  have hw : ∀ (body : Nat → Yn 1 1 ℚ → Yn 1 1 ℚ) (fuel : Nat), walkG (exFree.toG 1).mesh body 0 x fuel 0 y = .ok (body 0 y) := by
    intro body fuel
    rw [hmesh]
    unfold walkG
    simp [Sec.contains, h0, h1]
  have hcol : exFree.propagateColumn 0 y 0 x true = .ok ((exFree.toG 1).body Yn.reverse 0 true 0 x 0 y) := by
    unfold CProb.propagateColumn GProb.propagateColumn
    rw [hda, hdx, hf]
    simp only [Bool.not_true, Bool.or_self, Bool.false_eq_true, if_false, Outcome.bind_ok]
    exact hw _ _
  rcases eq_or_lt_of_le h0 with h | h
  · refine ⟨⟨1, 0⟩, by simp [← Matrix.fromBlocks_one], by simp [← Matrix.fromBlocks_one], hcol.trans ?_⟩
    subst h
    simp [GProb.body, exFree, CProb.toG, CSec.toG, GSec.propagate, Tn.mul]
  · refine ⟨⟨Matrix.fromBlocks 1 (x • 1) 0 1, 0⟩, by simp, by simp, hcol.trans ?_⟩
    have c : ¬ x ≤ 0 := not_le.mpr h
    have c2 : ¬ 1 < x := not_lt.mpr h1
    simp only [GProb.body, exFree, CProb.toG, CSec.toG, GSec.propagate, GSec.propagateDelta, List.map_cons, List.map_nil, List.getElem?_cons_zero, ccmp_le, ccmp_lt, c, c2, h, h0,
      decide_true, decide_false, Bool.and_false, Bool.or_false, Bool.not_false, if_true, sub_zero, lt_irrefl, Bool.false_eq_true, if_false, reduceCtorEq]
    simp

/-- Non-vacuity: the free particle on [0,1] from 0 to 3/4 with any `y` whose derivative block is invertible (e.g. `y = 2, y' = 1`). -/
example (y : Yn 1 1 ℚ) (hy : y.der = 1) : ∃ u, exFree.propagateColumn 0 y 0 (3/4) true = .ok u ∧ exFree.propagatePsi 0 y.psi 0 (3/4) = .ok u.psi := by
  have g : exFree.Good 0 true := by
    refine ⟨exFree_mesh, ?_, ?_, ?_, ?_⟩
    · intro s hs; simp only [exFree, List.mem_cons, List.not_mem_nil, or_false] at hs; subst hs; norm_num
    · intro s hs; simp only [exFree, List.mem_cons, List.not_mem_nil, or_false] at hs; subst hs; norm_num
    · intro s hs; simp only [exFree, List.mem_cons, List.not_mem_nil, or_false] at hs; subst hs; simp
    · intro s hs δ _ _; simp only [exFree, List.mem_cons, List.not_mem_nil, or_false] at hs; subst hs
      simp [Matrix.det_fromBlocks_zero₂₁]
  refine C59_from_left_partial g y ⟨by norm_num [exFree], by norm_num [exFree]⟩ ?_ ?_
  · intro s hs _; simp only [exFree, List.mem_cons, List.not_mem_nil, or_false] at hs; subst hs; rfl
  · intro x u h1 h2 hu
    obtain ⟨A, hA1, hA2, hA⟩ := exFree_column y x h1 (h2.trans (by norm_num))
    have hu' : exFree.propagateColumn 0 y 0 x true = .ok u := hu
    rw [hA] at hu'
    injection hu' with hu'
    rw [← hu', Yn.der_mul, hA1, hA2, hy]
    simp

end thms
end Verif.Matscs
