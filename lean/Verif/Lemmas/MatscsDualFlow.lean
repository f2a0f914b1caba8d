import Verif.Lemmas.MatscsDualChain

/-!
# A solution of a coupled system with its energy derivative
-/
namespace Verif.NP
open Verif.MFormulas Verif.Matscs Verif.Mesh Verif

attribute [local instance] Matrix.linftyOpNormedAddCommGroup Matrix.linftyOpNormedSpace Matrix.linftyOpNormedRing Matrix.linftyOpNormedAlgebra

section
variable {n r : ℕ}

/-- values, derivatives and their energy derivatives -/
abbrev Col2 (n r : ℕ) := Col n r × Col n r

/-- the state as a point of `Col2` -/
def ynSect (n r : ℕ) : Sect (Yn n r ℝ) (Col2 n r) := ⟨fun u => (u.y, u.yE), fun e => ⟨e.1, e.2⟩, fun _ => rfl⟩

/-- solution and energy derivative -/
def stk2 (y dy z dz : ℝ → Matrix (Fin n) (Fin r) ℝ) (x : ℝ) : Col2 n r := (stk y dy x, stk z dz x)

/-- `y` solves and `z` is an energy derivative -/
structure Both (V : ℝ → Mat n ℝ) (E a b : ℝ) (y dy z dz : ℝ → Matrix (Fin n) (Fin r) ℝ) : Prop where
  s : MSolvesOn V E a b y dy
  e : MEnergyOn V E a b y z dz

theorem Both.deriv1 {V : ℝ → Mat n ℝ} {E a b : ℝ} {y dy z dz : ℝ → Matrix (Fin n) (Fin r) ℝ} (h : Both V E a b y dy z dz) {x : ℝ} (hx : x ∈ Set.Icc a b) :
    HasDerivWithinAt (fun x => (y x, z x)) (dy x, dz x) (Set.Icc a b) x :=
  (matrix_deriv (fun i j => h.s.d1 x hx i j)).prodMk (matrix_deriv (fun i j => h.e.d1 x hx i j))

theorem Both.deriv2 {V : ℝ → Mat n ℝ} {E a b : ℝ} {y dy z dz : ℝ → Matrix (Fin n) (Fin r) ℝ} (h : Both V E a b y dy z dz) {x : ℝ} (hx : x ∈ Set.Icc a b) :
    HasDerivWithinAt (fun x => (dy x, dz x)) ((V x - E • (1 : Mat n ℝ)) * y x, (V x - E • (1 : Mat n ℝ)) * z x - y x) (Set.Icc a b) x :=
  (matrix_deriv (fun i j => h.s.d2 x hx i j)).prodMk (matrix_deriv (fun i j => h.e.d2 x hx i j))

theorem Both.mono {V : ℝ → Mat n ℝ} {E a b c d : ℝ} {y dy z dz : ℝ → Matrix (Fin n) (Fin r) ℝ} (h : Both V E a b y dy z dz) (h1 : a ≤ c) (h2 : d ≤ b) : Both V E c d y dy z dz :=
  ⟨MSolvesOn.mono h.s h1 h2, ⟨fun x hx i j => (h.e.d1 x ⟨h1.trans hx.1, hx.2.trans h2⟩ i j).mono (Set.Icc_subset_Icc h1 h2),
    fun x hx i j => (h.e.d2 x ⟨h1.trans hx.1, hx.2.trans h2⟩ i j).mono (Set.Icc_subset_Icc h1 h2)⟩⟩

theorem Both.reflect {V : ℝ → Mat n ℝ} {E a b : ℝ} {y dy z dz : ℝ → Matrix (Fin n) (Fin r) ℝ} (h : Both V E a b y dy z dz) :
    Both (fun x => V (a + b - x)) E a b (fun x => y (a + b - x)) (fun x => -dy (a + b - x)) (fun x => z (a + b - x)) (fun x => -dz (a + b - x)) := by
  have hm : Set.MapsTo (fun x => a + b - x) (Set.Icc a b) (Set.Icc a b) := fun x hx => ⟨by linarith [hx.2], by linarith [hx.1]⟩
  have hd : ∀ x, HasDerivWithinAt (fun x => a + b - x) (-1) (Set.Icc a b) x := fun x => ((hasDerivAt_id x).const_sub (a + b)).hasDerivWithinAt
  refine ⟨MSolvesOn.reflect h.s, ⟨?_, ?_⟩⟩
  · intro x hx i j
    have := (h.e.d1 _ (hm hx) i j).comp x (hd x) hm
    simpa [Function.comp_def] using this
  · intro x hx i j
    have := ((h.e.d2 _ (hm hx) i j).comp x (hd x) hm).fun_neg
    simpa [Function.comp_def] using this

/-- Lipschitz constant with the energy derivative -/
noncomputable def lD (n : ℕ) (M : ℝ) : ℝ := lC n M + 1

theorem rhs_le {M E : ℝ} {V : ℝ → Mat n ℝ} {a b : ℝ} (hV : MSmoothOn M V a b) (hM : 0 ≤ M) (hE : |E| ≤ M) {x : ℝ} (hx : x ∈ Set.Icc a b) (p : Matrix (Fin n) (Fin r) ℝ × Matrix (Fin n) (Fin r) ℝ) :
    ‖((V x - E • (1 : Mat n ℝ)) * p.1, (V x - E • (1 : Mat n ℝ)) * p.2 - p.1)‖ ≤ lD n M * ‖p‖ := by
  have hL := lC_one (n := n) hM
  have h1 := norm_fst_le p
  have h2 := norm_snd_le p
  have k : ∀ m : Matrix (Fin n) (Fin r) ℝ, ‖m‖ ≤ ‖p‖ → ‖(V x - E • (1 : Mat n ℝ)) * m‖ ≤ lC n M * ‖p‖ := fun m hm =>
    (Matrix.linfty_opNorm_mul _ _).trans (mul_le_mul (pot_le hV hM hE hx) hm (norm_nonneg _) (by linarith))
  have hp := norm_nonneg p
  rw [Prod.norm_mk]
  unfold lD
  refine max_le ((k _ h1).trans (by linarith)) ?_
  refine (norm_sub_le_of_le (k _ h2) h1).trans (le_of_eq (by ring))

theorem norm_stk2 (y dy z dz : ℝ → Matrix (Fin n) (Fin r) ℝ) (x : ℝ) : ‖stk2 y dy z dz x‖ = max ‖(y x, z x)‖ ‖(dy x, dz x)‖ := by
  unfold stk2
  rw [Prod.norm_mk, Prod.norm_mk, Prod.norm_mk, norm_stk, norm_stk]
  exact max_max_max_comm _ _ _ _

theorem stk2_lip {M E S : ℝ} {V : ℝ → Mat n ℝ} {a b : ℝ} (hV : MSmoothOn M V a b) (hM : 0 ≤ M) (hE : |E| ≤ M) {y dy z dz : ℝ → Matrix (Fin n) (Fin r) ℝ} (hy : Both V E a b y dy z dz)
    (hS : ∀ x ∈ Set.Icc a b, ‖stk2 y dy z dz x‖ ≤ S) {x x' : ℝ} (hx : x ∈ Set.Icc a b) (hx' : x' ∈ Set.Icc a b) : ‖stk2 y dy z dz x' - stk2 y dy z dz x‖ ≤ lD n M * S * |x' - x| := by
  have hS0 : 0 ≤ S := (norm_nonneg _).trans (hS x hx)
  have h1 := lC_one (n := n) hM
  have hD : 1 ≤ lD n M := by unfold lD; linarith
  have hS1 : ∀ t ∈ Set.Icc a b, ‖(y t, z t)‖ ≤ S ∧ ‖(dy t, dz t)‖ ≤ S := by
    intro t ht
    have := hS t ht
    rw [norm_stk2] at this
    exact ⟨(le_max_left _ _).trans this, (le_max_right _ _).trans this⟩
  have k1 := (convex_Icc a b).norm_image_sub_le_of_norm_hasDerivWithin_le (f := fun t => (y t, z t)) (f' := fun t => (dy t, dz t)) (C := S) (fun t ht => hy.deriv1 ht)
      (fun t ht => (hS1 t ht).2) hx hx'
  have k2 := (convex_Icc a b).norm_image_sub_le_of_norm_hasDerivWithin_le (f := fun t => (dy t, dz t)) (f' := fun t => ((V t - E • (1 : Mat n ℝ)) * y t, (V t - E • (1 : Mat n ℝ)) * z t - y t)) (C := lD n M * S)
      (fun t ht => hy.deriv2 ht)
      (fun t ht => (rhs_le hV hM hE ht (y t, z t)).trans (mul_le_mul_of_nonneg_left (hS1 t ht).1 (by linarith))) hx hx'
  rw [Real.norm_eq_abs] at k1 k2
  have k1' : ‖(y x', z x') - (y x, z x)‖ ≤ lD n M * S * |x' - x| := by
    refine k1.trans ?_
    have := mul_nonneg hS0 (abs_nonneg (x' - x))
    nlinarith only [this, hD]
  rw [Prod.mk_sub_mk, Prod.norm_mk] at k1' k2
  unfold stk2 stk
  rw [Prod.mk_sub_mk, Prod.norm_mk, fromRows_sub, fromRows_sub]
  exact max_le (norm_fromRows_le ((le_max_left _ _).trans k1') ((le_max_left _ _).trans k2)) (norm_fromRows_le ((le_max_right _ _).trans k1') ((le_max_right _ _).trans k2))

theorem growth2_fwd {M E : ℝ} {V : ℝ → Mat n ℝ} {a b : ℝ} (hV : MSmoothOn M V a b) (hM : 0 ≤ M) (hE : |E| ≤ M) {y dy z dz : ℝ → Matrix (Fin n) (Fin r) ℝ} (hy : Both V E a b y dy z dz)
    {x : ℝ} (hx : x ∈ Set.Icc a b) : ‖stk2 y dy z dz x‖ ≤ Real.exp (lD n M * (x - a)) * ‖stk2 y dy z dz a‖ := by
  rw [norm_stk2, norm_stk2, mul_comm]
  exact vsolution_bound (X := Matrix (Fin n) (Fin r) ℝ × Matrix (Fin n) (Fin r) ℝ) (q := fun x p => ((V x - E • (1 : Mat n ℝ)) * p.1, (V x - E • (1 : Mat n ℝ)) * p.2 - p.1))
    (y := fun x => (y x, z x)) (dy := fun x => (dy x, dz x)) (by unfold lD; linarith [lC_one (n := n) hM])
    (fun t ht p => rhs_le hV hM hE ht p) (fun t ht => hy.deriv1 ht) (fun t ht => hy.deriv2 ht) hx

theorem growth2_bwd {M E : ℝ} {V : ℝ → Mat n ℝ} {a b : ℝ} (hV : MSmoothOn M V a b) (hM : 0 ≤ M) (hE : |E| ≤ M) {y dy z dz : ℝ → Matrix (Fin n) (Fin r) ℝ} (hy : Both V E a b y dy z dz)
    {x : ℝ} (hx : x ∈ Set.Icc a b) : ‖stk2 y dy z dz a‖ ≤ Real.exp (lD n M * (x - a)) * ‖stk2 y dy z dz x‖ := by
  have hy' := (hy.mono le_rfl hx.2).reflect
  have hV' : MSmoothOn M (fun t => V (a + x - t)) a x := fun i j => ((hV i j).mono le_rfl hx.2).reflect
  have := growth2_fwd hV' hM hE hy' (x := x) ⟨hx.1, le_rfl⟩
  rw [norm_stk2, norm_stk2] at this
  simp only [add_sub_cancel_right, add_sub_cancel_left, Prod.norm_mk, norm_neg] at this
  rw [norm_stk2, norm_stk2]
  simp only [Prod.norm_mk]
  exact this

theorem growth2 {M E : ℝ} (hM : 0 ≤ M) (hE : |E| ≤ M) {W : Sec ℝ → ℝ → Mat n ℝ} {y dy z dz : ℝ → Matrix (Fin n) (Fin r) ℝ} :
    ∀ {l : List (Sec ℝ)} {a b : ℝ}, Chn a l b → (∀ s ∈ l, s.min < s.max) → (∀ s ∈ l, MSmoothOn M (W s) s.min s.max) → (∀ s ∈ l, Both (W s) E s.min s.max y dy z dz) → ∀ x ∈ Set.Icc a b,
      ‖stk2 y dy z dz x‖ ≤ Real.exp (lD n M * (x - a)) * ‖stk2 y dy z dz a‖ ∧ ‖stk2 y dy z dz a‖ ≤ Real.exp (lD n M * (x - a)) * ‖stk2 y dy z dz x‖
  | [], a, b, hc, _, _, _, x, hx => by
    simp only [Chn] at hc
    have : x = a := by linarith [hx.1, hx.2]
    simp [this]
  | s :: l, a, b, hc, hp, hV, hy, x, hx => by
    have hs := hp s (by simp)
    have ha : s.min = a := hc.1
    have key : ∀ t ∈ Set.Icc s.min s.max, ‖stk2 y dy z dz t‖ ≤ Real.exp (lD n M * (t - a)) * ‖stk2 y dy z dz a‖ ∧ ‖stk2 y dy z dz a‖ ≤ Real.exp (lD n M * (t - a)) * ‖stk2 y dy z dz t‖ := by
      intro t ht
      rw [← ha]
      exact ⟨growth2_fwd (hV s (by simp)) hM hE (hy s (by simp)) ht, growth2_bwd (hV s (by simp)) hM hE (hy s (by simp)) ht⟩
    rcases le_or_gt x s.max with h | h
    · exact key x ⟨by linarith [hx.1], h⟩
    · obtain ⟨i1, i2⟩ := growth2 hM hE hc.2 (fun t ht => hp t (List.mem_cons_of_mem _ ht)) (fun t ht => hV t (List.mem_cons_of_mem _ ht)) (fun t ht => hy t (List.mem_cons_of_mem _ ht)) x ⟨h.le, hx.2⟩
      obtain ⟨k1, k2⟩ := key s.max ⟨hs.le, le_rfl⟩
      have e1 : Real.exp (lD n M * (x - a)) = Real.exp (lD n M * (x - s.max)) * Real.exp (lD n M * (s.max - a)) := by rw [← Real.exp_add]; congr 1; ring
      rw [e1]
      constructor
      · rw [mul_assoc]; exact i1.trans (mul_le_mul_of_nonneg_left k1 (Real.exp_pos _).le)
      · rw [mul_comm (Real.exp (lD n M * (x - s.max))), mul_assoc]; exact k2.trans (mul_le_mul_of_nonneg_left i2 (Real.exp_pos _).le)

/-! ### The operators of the code -/

theorem one_add_le_exp' {x : ℝ} : 1 + x ≤ Real.exp x := by linarith [Real.add_one_le_exp x]

theorem lipP_perm {A : Tn n ℝ} {θ : ℝ} (h : ‖A.t - 1‖ ≤ θ) (hd : ‖A.dt‖ ≤ θ) (hθ : θ ≤ 1 / 2) : IsUnit A.t.det ∧ LipP (ynSect n r) (5 * θ) (permOf (S := Yn n r ℝ) A.mul A.div) := by
  have h0 : 0 ≤ θ := (norm_nonneg _).trans h
  obtain ⟨a1, a2, a3⟩ := near_one h hθ
  have hi := Tn.inverses (r := r) A a1
  have mulle : ∀ (B : Matrix (Fin n ⊕ Fin n) (Fin n ⊕ Fin n) ℝ) (m : Col n r) {x y : ℝ}, ‖B‖ ≤ x → ‖m‖ ≤ y → ‖B * m‖ ≤ x * y := fun B m x y h1 h2 =>
    (Matrix.linfty_opNorm_mul _ _).trans (mul_le_mul h1 h2 (norm_nonneg _) ((norm_nonneg _).trans h1))
  have E1 : Real.exp (2 * θ) ≤ 3 := (Real.exp_le_exp.mpr (by linarith : 2 * θ ≤ 1)).trans (by linarith [Real.exp_one_lt_d9])
  have E0 := Real.exp_pos (2 * θ)
  have E2 : Real.exp (2 * θ) + θ ≤ Real.exp (5 * θ) := by
    have e1 : 1 + 3 * θ ≤ Real.exp (3 * θ) := one_add_le_exp'
    have e2 : Real.exp (5 * θ) = Real.exp (2 * θ) * Real.exp (3 * θ) := by rw [← Real.exp_add]; congr 1; ring
    have e3 : 1 ≤ Real.exp (2 * θ) := Real.one_le_exp (by linarith)
    rw [e2]; nlinarith
  have E3 : Real.exp (2 * θ) + Real.exp (2 * θ) * (θ * Real.exp (2 * θ)) ≤ Real.exp (5 * θ) := by
    have e1 : 1 + 3 * θ ≤ Real.exp (3 * θ) := one_add_le_exp'
    have e2 : Real.exp (5 * θ) = Real.exp (2 * θ) * Real.exp (3 * θ) := by rw [← Real.exp_add]; congr 1; ring
    rw [e2]
    have : Real.exp (2 * θ) * (1 + θ * Real.exp (2 * θ)) ≤ Real.exp (2 * θ) * Real.exp (3 * θ) := mul_le_mul_of_nonneg_left (by nlinarith) E0.le
    linarith
  refine ⟨a1, ?_, ?_⟩
  · intro u u'
    rw [permOf_apply hi, permOf_apply hi]
    show ‖((A.t * u.y, A.t * u.yE + A.dt * u.y) : Col2 n r) - (A.t * u'.y, A.t * u'.yE + A.dt * u'.y)‖ ≤ _ * ‖((u.y, u.yE) : Col2 n r) - (u'.y, u'.yE)‖
    rw [Prod.mk_sub_mk, Prod.mk_sub_mk, ← Matrix.mul_sub, show A.t * u.yE + A.dt * u.y - (A.t * u'.yE + A.dt * u'.y) = A.t * (u.yE - u'.yE) + A.dt * (u.y - u'.y) by
      rw [Matrix.mul_sub, Matrix.mul_sub]; abel]
    have h1 := norm_fst_le ((u.y - u'.y, u.yE - u'.yE) : Col2 n r)
    have h2 := norm_snd_le ((u.y - u'.y, u.yE - u'.yE) : Col2 n r)
    have hp := norm_nonneg ((u.y - u'.y, u.yE - u'.yE) : Col2 n r)
    generalize ‖((u.y - u'.y, u.yE - u'.yE) : Col2 n r)‖ = p at *
    rw [Prod.norm_mk]
    have E2p := mul_le_mul_of_nonneg_right E2 hp
    have tp := mul_nonneg h0 hp
    refine max_le ((mulle _ _ a2 h1).trans (by linarith)) ((norm_add_le_of_le (mulle _ _ a2 h2) (mulle _ _ hd h1)).trans (by linarith))
  · intro u u'
    rw [permOf_inv_apply hi, permOf_inv_apply hi]
    show ‖((A.t⁻¹ * u.y, A.t⁻¹ * u.yE - A.t⁻¹ * (A.dt * (A.t⁻¹ * u.y))) : Col2 n r) - (A.t⁻¹ * u'.y, A.t⁻¹ * u'.yE - A.t⁻¹ * (A.dt * (A.t⁻¹ * u'.y)))‖ ≤ _ * ‖((u.y, u.yE) : Col2 n r) - (u'.y, u'.yE)‖
    rw [Prod.mk_sub_mk, Prod.mk_sub_mk, ← Matrix.mul_sub, show A.t⁻¹ * u.yE - A.t⁻¹ * (A.dt * (A.t⁻¹ * u.y)) - (A.t⁻¹ * u'.yE - A.t⁻¹ * (A.dt * (A.t⁻¹ * u'.y))) =
      A.t⁻¹ * (u.yE - u'.yE) - A.t⁻¹ * (A.dt * (A.t⁻¹ * (u.y - u'.y))) by simp only [Matrix.mul_sub]; abel]
    have h1 := norm_fst_le ((u.y - u'.y, u.yE - u'.yE) : Col2 n r)
    have h2 := norm_snd_le ((u.y - u'.y, u.yE - u'.yE) : Col2 n r)
    have hp := norm_nonneg ((u.y - u'.y, u.yE - u'.yE) : Col2 n r)
    generalize ‖((u.y - u'.y, u.yE - u'.yE) : Col2 n r)‖ = p at *
    rw [Prod.norm_mk]
    have E2p := mul_le_mul_of_nonneg_right E2 hp
    have E3p := mul_le_mul_of_nonneg_right E3 hp
    have tp := mul_nonneg h0 hp
    refine max_le ((mulle _ _ a3 h1).trans (by linarith)) ((norm_sub_le_of_le (mulle _ _ a3 h2) (mulle _ _ a3 (mulle _ _ hd (mulle _ _ a3 h1)))).trans (by linarith))

theorem lipP_rev : LipP (ynSect n r) 0 (permOf (S := Yn n r ℝ) Yn.reverse Yn.reverse) := by
  have h : ∀ u u' : Yn n r ℝ, ‖(ynSect n r).pr u.reverse - (ynSect n r).pr u'.reverse‖ ≤ Real.exp 0 * ‖(ynSect n r).pr u - (ynSect n r).pr u'‖ := by
    intro u u'
    show ‖((revRows u.y, revRows u.yE) : Col2 n r) - (revRows u'.y, revRows u'.yE)‖ ≤ _ * ‖((u.y, u.yE) : Col2 n r) - (u'.y, u'.yE)‖
    rw [Prod.mk_sub_mk, Prod.mk_sub_mk, revRows_sub, revRows_sub, Real.exp_zero, one_mul, Prod.norm_mk, Prod.norm_mk]
    exact max_le_max (revRows_norm _) (revRows_norm _)
  constructor
  · intro u u'
    rw [revP_apply Yn.reverse_reverse, revP_apply Yn.reverse_reverse]; exact h u u'
  · intro u u'
    rw [revP_inv Yn.reverse_reverse, revP_apply Yn.reverse_reverse, revP_apply Yn.reverse_reverse]; exact h u u'

/-- reversed rows of both parts -/
def rev2 (p : Col2 n r) : Col2 n r := (revRows p.1, revRows p.2)

theorem rev2_rev (p : Col2 n r) : rev2 (rev2 p) = p := by unfold rev2; rw [revRows_rev, revRows_rev]

theorem rev2_norm (p : Col2 n r) : ‖rev2 p‖ ≤ ‖p‖ := by
  show ‖(revRows p.1, revRows p.2)‖ ≤ ‖p‖
  rw [Prod.norm_mk]
  exact max_le ((revRows_norm _).trans (norm_fst_le p)) ((revRows_norm _).trans (norm_snd_le p))

theorem tracksP_rev (Y : Col2 n r) : TracksP (ynSect n r) (permOf (S := Yn n r ℝ) Yn.reverse Yn.reverse) Y (rev2 Y) 0 := by
  intro u hu
  rw [revP_apply Yn.reverse_reverse]
  have : (ynSect n r).pr u.reverse = rev2 Y := by rw [← hu]; rfl
  rw [this, sub_self, norm_zero]

theorem tracksP_perm {A : Tn n ℝ} (hd : IsUnit A.t.det) {Y Y' : Col2 n r} {e : ℝ} (h1 : ‖A.t * Y.1 - Y'.1‖ ≤ e) (h2 : ‖A.t * Y.2 + A.dt * Y.1 - Y'.2‖ ≤ e) :
    TracksP (ynSect n r) (permOf (S := Yn n r ℝ) A.mul A.div) Y Y' e := by
  intro u hu
  rw [permOf_apply (Tn.inverses A hd)]
  obtain ⟨rfl⟩ : (u.y, u.yE) = Y := hu
  show ‖((A.t * u.y, A.t * u.yE + A.dt * u.y) : Col2 n r) - Y'‖ ≤ e
  rw [← Prod.mk.eta (p := Y'), Prod.mk_sub_mk, Prod.norm_mk]
  exact max_le h1 h2

end
end Verif.NP
