import Verif.Lemmas.MatscsDual

/-!
# One step of the energy derivative of a coupled system
-/
namespace Verif.NP
open Verif.MFormulas Verif.CalcT Verif.YT Verif.Legendre Verif.Matscs
open scoped BigOperators

attribute [local instance] Matrix.linftyOpNormedAddCommGroup Matrix.linftyOpNormedSpace Matrix.linftyOpNormedRing Matrix.linftyOpNormedAlgebra

section
variable {n r : ℕ}

set_option maxRecDepth 1000000 in
theorem late_all : [MEntry4.a, MEntry4.b, MEntry4.c, MEntry4.d].all (fun sel =>
    (rowsF sel 0 tDelta).all (fun f => !(Nat.ble 4 f.i) || Nat.ble 7 (f.j + f.p)) && (hF sel 0 tH).all (fun f => !(Nat.ble 5 f.i) || Nat.ble 8 (f.j + f.p))) = true := by
  decide +kernel

theorem late {sel : MEntry4 → MEntry} (hs : IsBlock sel) {useH : Bool} {f : FT} (hf : f ∈ lst useH sel) (hi : ¬ f.i + 1 < etaN useH) : ordM useH - 2 ≤ f.j + f.p := by
  have h0 := List.all_eq_true.mp late_all sel (by rcases hs with h | h | h | h <;> simp [h])
  rw [Bool.and_eq_true] at h0
  cases useH with
  | false =>
    have h1 := List.all_eq_true.mp h0.1 f hf
    rw [Bool.or_eq_true] at h1
    rcases h1 with h1 | h1
    · exfalso
      have : Nat.ble 4 f.i = true := Nat.ble_eq.mpr (by simp only [etaN] at hi; simp at hi; omega)
      rw [this] at h1; simp at h1
    · exact Nat.ble_eq.mp h1
  | true =>
    have h1 := List.all_eq_true.mp h0.2 f hf
    rw [Bool.or_eq_true] at h1
    rcases h1 with h1 | h1
    · exfalso
      have : Nat.ble 5 f.i = true := Nat.ble_eq.mpr (by simp only [etaN] at hi; simp at hi; omega)
      rw [this] at h1; simp at h1
    · exact Nat.ble_eq.mp h1

theorem evc_sub (q : MTerm → ℝ) (v e f : ℕ → Mat n ℝ) (h δ : ℝ) (l : List FT) : evc q v e h δ l - evc q v f h δ l = evc q v (fun i => e i - f i) h δ l := by
  induction l with
  | nil => simp [evc]
  | cons t l ih =>
    rw [evc, evc, evc, ← ih, FT.val, FT.val, FT.val, mul_sub, smul_sub]
    abel

theorem ev_smul (w e : ℕ → Mat n ℝ) (x : ℝ) (h δ : ℝ) (l : NP) : ev w (fun i => x • e i) h δ l = x • ev w e h δ l := by
  induction l with
  | nil => simp [ev]
  | cons m l ih =>
    rw [ev, ev, ih, smul_add, RM.mon, RM.mon, mul_smul_comm, smul_smul, smul_smul, smul_smul, smul_smul]
    congr 2; ring

theorem ev_filter (w e : ℕ → Mat n ℝ) (h δ : ℝ) (p : RM → Bool) (l : NP) (hz : ∀ m ∈ l, p m = false → e m.i = 0) : ev w e h δ l = ev w e h δ (l.filter p) := by
  induction l with
  | nil => rfl
  | cons m l ih =>
    have ih' := ih (fun m hm => hz m (by simp [hm]))
    by_cases hp : p m = true
    · rw [List.filter_cons_of_pos hp, ev, ev, ih']
    · rw [List.filter_cons_of_neg hp, ev, ih', RM.mon, hz m (by simp) (by simpa using hp)]
      simp

/-- constant of the omitted term -/
noncomputable def oX (sel : MEntry4 → MEntry) (B : ℝ) : ℝ :=
  (pB B (rowsF sel 0 tDelta) + pB B (hF sel 0 tH)) + (cB B ((rowsF sel 0 tDelta).map FT.rm) + cB B ((hF sel 0 tH).map FT.rm))

theorem oX_nonneg (sel : MEntry4 → MEntry) {B : ℝ} (hB : 0 ≤ B) : 0 ≤ oX sel B :=
  add_nonneg (add_nonneg (pB_nonneg hB _) (pB_nonneg hB _)) (add_nonneg (cB_nonneg hB _) (cB_nonneg hB _))

theorem lst_le (sel : MEntry4 → MEntry) {B : ℝ} (hB : 0 ≤ B) (useH : Bool) : pB B (lst useH sel) ≤ oX sel B ∧ cB B ((lst useH sel).map FT.rm) ≤ oX sel B ∧
    pB B (lst useH sel) + cB B ((lst useH sel).map FT.rm) ≤ oX sel B := by
  have p1 := pB_nonneg hB (rowsF sel 0 tDelta)
  have p2 := pB_nonneg hB (hF sel 0 tH)
  have p3 := cB_nonneg hB ((rowsF sel 0 tDelta).map FT.rm)
  have p4 := cB_nonneg hB ((hF sel 0 tH).map FT.rm)
  unfold oX
  cases useH with
  | true => show pB B (hF sel 0 tH) ≤ _ ∧ cB B ((hF sel 0 tH).map FT.rm) ≤ _ ∧ pB B (hF sel 0 tH) + cB B ((hF sel 0 tH).map FT.rm) ≤ _; exact ⟨by linarith, by linarith, by linarith⟩
  | false => show pB B (rowsF sel 0 tDelta) ≤ _ ∧ cB B ((rowsF sel 0 tDelta).map FT.rm) ≤ _ ∧ pB B (rowsF sel 0 tDelta) + cB B ((rowsF sel 0 tDelta).map FT.rm) ≤ _; exact ⟨by linarith, by linarith, by linarith⟩

theorem omit_small {sel : MEntry4 → MEntry} (hs : IsBlock sel) {B ρ τ σ : ℝ} {q : MTerm → ℝ} (hq : LitWithin ρ q) {v w e' e : ℕ → Mat n ℝ} {h δ : ℝ} {useH : Bool}
    (N : Near (etaN useH) B ρ τ σ q v w e' e h δ) (b : Bnd B w e h δ) {X : Mat n ℝ} (hX : ‖X‖ ≤ B) :
    ‖evc q v (dEta (etaN useH) e' δ) h δ (lst useH sel) - evc q v (dEtaX (etaN useH) e' X δ) h δ (lst useH sel)‖ ≤ oX sel B * (h ^ ordM useH + h * (ρ + τ)) := by
  obtain ⟨om, hom⟩ : ∃ om : ℕ → Mat n ℝ, om = fun i => if i + 1 < etaN useH then 0 else X := ⟨_, rfl⟩
  have hB0 : 0 ≤ B := by linarith [b.B1]
  have hτ : 0 ≤ τ := le_trans (mul_nonneg (norm_nonneg _) (pow_nonneg N.h0 _)) (N.nvw 0)
  have d2 : |δ * δ / 2| ≤ h ^ 2 := by
    rw [abs_of_nonneg (by have := N.d0; positivity)]
    have := mul_le_mul N.d1 N.d1 N.d0 N.h0
    have := mul_nonneg N.d0 N.d0
    nlinarith
  have d1 : |δ * δ / 2| ≤ 1 := d2.trans (pow_le_one₀ N.h0 N.h1)
  have omb : ∀ i, ‖om i‖ ≤ B := by
    intro i; rw [hom]; dsimp only; split
    · rw [norm_zero]; exact hB0
    · exact hX
  have omb2 : ∀ i, ‖(δ * δ / 2) • om i‖ ≤ B := fun i => by
    rw [norm_smul, Real.norm_eq_abs]
    calc |δ * δ / 2| * ‖om i‖ ≤ 1 * B := mul_le_mul d1 (omb i) (norm_nonneg _) zero_le_one
      _ = B := one_mul B
  have e1 : (fun i => dEta (etaN useH) e' δ i - dEtaX (etaN useH) e' X δ i) = fun i => (δ * δ / 2) • om i := by
    funext i
    rw [hom]; unfold dEta dEtaX
    dsimp only
    split
    · simp
    · rw [zero_sub, ← neg_smul]; congr 1; ring
  rw [evc_sub, e1]
  have N2 : Near (etaN useH) B ρ τ 0 q v w (fun i => (δ * δ / 2) • om i) (fun i => (δ * δ / 2) • om i) h δ :=
    ⟨N.B1, N.one, N.h0, N.h1, N.d0, N.d1, N.nv, N.nw, N.nvw, omb2, fun i _ => omb2 i, fun i _ => by rw [sub_self, norm_zero], N.nρ0⟩
  have k1 := evc_near N2 (lst useH sel) (fun f hf => by
    cases useH with
    | true => exact termOk_H hs hq hf
    | false => exact termOk_D hs hq hf)
  have b2 : Bnd B w om h δ := ⟨b.B1, b.one, b.h0, b.h1, b.d0, b.d1, b.v, omb⟩
  have k2 : ‖ev w (fun i => (δ * δ / 2) • om i) h δ ((lst useH sel).map FT.rm)‖ ≤ cB B ((lst useH sel).map FT.rm) * h ^ ordM useH := by
    rw [ev_smul, ev_filter w om h δ (fun m => decide (¬ m.i + 1 < etaN useH)) _ (fun m _ hm => by
      rw [hom]; dsimp only; rw [if_pos]; simpa using hm)]
    rw [norm_smul, Real.norm_eq_abs]
    have k3 := b2.ev_le (ordM useH - 2) (((lst useH sel).map FT.rm).filter (fun m => decide (¬ m.i + 1 < etaN useH))) (fun m hm => by
      obtain ⟨hm1, hm2⟩ := List.mem_filter.mp hm
      obtain ⟨f, hf, rfl⟩ := List.mem_map.mp hm1
      exact late hs hf (of_decide_eq_true hm2))
    have hh := N.h0
    calc _ ≤ h ^ 2 * (cB B (((lst useH sel).map FT.rm).filter (fun m => decide (¬ m.i + 1 < etaN useH))) * h ^ (ordM useH - 2)) := mul_le_mul d2 k3 (norm_nonneg _) (by positivity)
      _ ≤ h ^ 2 * (cB B ((lst useH sel).map FT.rm) * h ^ (ordM useH - 2)) := by
          refine mul_le_mul_of_nonneg_left (mul_le_mul_of_nonneg_right (cB_filter_le hB0 _ _) (by positivity)) (by positivity)
      _ = cB B ((lst useH sel).map FT.rm) * h ^ (2 + (ordM useH - 2)) := by rw [pow_add]; ring
      _ = _ := by rw [show 2 + (ordM useH - 2) = ordM useH by cases useH <;> rfl]
  have k4 := norm_add_le_of_le k1 (norm_smul_frac k2)
  rw [sub_add_cancel, add_zero] at k4
  obtain ⟨l1, l2, l3⟩ := lst_le sel hB0 useH
  have x1 : 0 ≤ h * (ρ + τ) := mul_nonneg N.h0 (add_nonneg N.nρ0 hτ)
  have x2 : 0 ≤ h ^ ordM useH := pow_nonneg N.h0 _
  have m1 := mul_le_mul_of_nonneg_right l1 x1
  have m2 := mul_le_mul_of_nonneg_right l2 x2
  rw [mul_add]
  linarith

/-! ### From blocks to a step -/

theorem step_from_blocks {m : ℕ} {B h κ g : ℝ} {w : ℕ → Mat m ℝ} {e : ℕ → ℝ → Mat m ℝ} (hf : EtaFam w e) (hh : 0 < h) (hv : ∀ k, Commute (w 9 - w 0) (w k))
    (b : ∀ δ ∈ Set.Icc 0 h, Bnd B w (atd e δ) h δ) (e0 : e 0 0 = 1) {V : ℝ → Mat m ℝ} (hV : ∀ x ∈ Set.Icc 0 h, ‖V x - (w 9 + dVm w h x)‖ ≤ κ) (hκ : κ ≤ B) {δ : ℝ} (hδ : δ ∈ Set.Icc 0 h)
    {A1 A2 A3 A4 : Mat m ℝ} (g0 : 0 ≤ g) (n1 : ‖A1 - iv Ua w e h δ‖ ≤ g) (n2 : ‖A2 - iv Ub w e h δ‖ ≤ g) (n3 : ‖A3 - iv Uc w e h δ‖ ≤ g) (n4 : ‖A4 - iv Ud w e h δ‖ ≤ g) :
    (‖A1 - 1‖ ≤ g + sC B * h ∧ ‖A2‖ ≤ g + sC B * h ∧ ‖A3‖ ≤ g + sC B * h ∧ ‖A4 - 1‖ ≤ g + sC B * h) ∧
    ∀ (y dy : ℝ → Matrix (Fin m) (Fin r) ℝ) (S : ℝ), (∀ x ∈ Set.Icc 0 h, HasDerivWithinAt y (dy x) (Set.Icc 0 h) x) → (∀ x ∈ Set.Icc 0 h, HasDerivWithinAt dy (V x * y x) (Set.Icc 0 h) x) →
      ‖y 0‖ ≤ S → ‖dy 0‖ ≤ S →
      ‖A1 * y 0 + A2 * dy 0 - y δ‖ ≤ g * S + g * S + rCof Ua Ub Uc Ud B * (h ^ 9 + κ) * S * h * Real.exp (10 * B + 2) ∧
      ‖A3 * y 0 + A4 * dy 0 - dy δ‖ ≤ g * S + g * S + rCof Ua Ub Uc Ud B * (h ^ 9 + κ) * S * h * Real.exp (10 * B + 2) := by
  constructor
  · obtain ⟨sa, sb, scc, sd⟩ := start_near hf e0 b hδ tab_U (sc := sC B) rfl
    refine ⟨?_, ?_, ?_, ?_⟩
    · have := norm_add_le_of_le n1 sa
      rwa [sub_add_sub_cancel] at this
    · have := norm_add_le_of_le n2 sb
      rwa [sub_add_cancel] at this
    · have := norm_add_le_of_le n3 scc
      rwa [sub_add_cancel] at this
    · have := norm_add_le_of_le n4 sd
      rwa [sub_add_sub_cancel] at this
  · intro y dy S d1 d2 s1 s2
    have k := ideal_step_gen tab_U hf hh hv b e0 hV hκ d1 d2 s1 s2 hδ
    have bl : ∀ (A A' i1 i2 : Mat m ℝ) (z : Matrix (Fin m) (Fin r) ℝ) (X : ℝ), ‖A - i1‖ ≤ g → ‖A' - i2‖ ≤ g → ‖i1 * y 0 + i2 * dy 0 - z‖ ≤ X → ‖A * y 0 + A' * dy 0 - z‖ ≤ g * S + g * S + X := by
      intro A A' i1 i2 z X g1 g2 g3
      have e1 : A * y 0 + A' * dy 0 - z = ((A - i1) * y 0 + (A' - i2) * dy 0) + (i1 * y 0 + i2 * dy 0 - z) := by
        rw [Matrix.sub_mul, Matrix.sub_mul]; abel
      rw [e1]
      refine norm_add_le_of_le (norm_add_le_of_le ?_ ?_) g3
      · exact (Matrix.linfty_opNorm_mul _ _).trans (mul_le_mul g1 s1 (norm_nonneg _) g0)
      · exact (Matrix.linfty_opNorm_mul _ _).trans (mul_le_mul g2 s2 (norm_nonneg _) g0)
    exact ⟨bl _ _ _ _ _ _ n1 n2 k.1, bl _ _ _ _ _ _ n3 n4 k.2⟩

theorem x_le {M τ σ ρ h : ℝ} (hM : 0 ≤ M) (hτ : 0 ≤ τ) (hσ : 0 ≤ σ) (hρ : 0 ≤ ρ) (h0 : 0 ≤ h) (h1 : h ≤ 1) (useH : Bool) :
    h ^ ordM useH + h * (ρ + n * tau M τ h) + n * σ * n ≤ (1 + n + 31 * n * M + n * n) * (h ^ ordM useH + h * (ρ + τ) + σ) := by
  have hn : (0 : ℝ) ≤ n := Nat.cast_nonneg _
  obtain ⟨X, hX⟩ : ∃ X, X = h ^ ordM useH + h * (ρ + τ) + σ := ⟨_, rfl⟩
  have p0 : 0 ≤ h ^ ordM useH := by positivity
  have q1 : h ^ 17 ≤ h ^ ordM useH := pow_le_pow_of_le_one h0 h1 (by cases useH <;> decide)
  have a1 : h * (ρ + n * tau M τ h) = h * ρ + n * (h * τ) + 31 * n * M * h ^ 17 := by unfold tau; ring
  have z1 := mul_nonneg h0 hτ
  have z2 := mul_nonneg h0 hρ
  have a3 : h * τ ≤ X := by rw [hX]; linarith
  have a4 : h ^ 17 ≤ X := by rw [hX]; linarith
  have a5 : σ ≤ X := by rw [hX]; linarith
  have a6 : h ^ ordM useH + h * ρ ≤ X := by rw [hX]; linarith
  have b1 := mul_le_mul_of_nonneg_left a3 hn
  have b2 := mul_le_mul_of_nonneg_left a4 (show 0 ≤ 31 * n * M by positivity)
  have b3 := mul_le_mul_of_nonneg_left a5 (show (0 : ℝ) ≤ n * n by positivity)
  rw [a1, ← hX]
  linarith

theorem bC_nonneg {B : ℝ} (B0 : 0 ≤ B) : 0 ≤ bC B := by
  unfold bC
  have := bX_nonneg MEntry4.a extA Ua B0
  have := bX_nonneg MEntry4.b extB Ub B0
  have := bX_nonneg MEntry4.c extC (tD MEntry4.c ++ extC) B0
  have := bX_nonneg MEntry4.d extD Ud B0
  linarith

/-- constants of the energy derivative of a sector -/
noncomputable def dgC (n : ℕ) (M : ℝ) : ℝ :=
  (2 * bC (2 * gB n M) + (oX MEntry4.a (gB n M) + oX MEntry4.b (gB n M) + oX MEntry4.c (gB n M) + oX MEntry4.d (gB n M))) * (1 + n + 31 * n * M + n * n)

noncomputable def dsC (n : ℕ) (M : ℝ) : ℝ :=
  1 + 6 * dgC n M + 2 * sC (2 * gB n M) + rCof Ua Ub Uc Ud (2 * gB n M) * (1 + 3504 * n * M + n) * Real.exp (10 * (2 * gB n M) + 2)

theorem lt2_near {t D DX : Mat n ℝ} {I : Mat (n + n) ℝ} {a b : ℝ} (h1 : ‖lt2 t DX - I‖ ≤ a) (h2 : ‖D - DX‖ ≤ b) : ‖lt2 t D - I‖ ≤ b + a := by
  have e1 : lt2 t D - I = lt2 0 (D - DX) + (lt2 t DX - I) := by
    rw [← add_sub_assoc, lt2_add, zero_add, sub_add_cancel]
  rw [e1]
  have h3 := norm_lt2_le (le_of_eq (norm_zero (E := Mat n ℝ))) h2
  rw [zero_add] at h3
  exact norm_add_le_of_le h3 h1

theorem de_zero {e : ℕ → ℝ → Mat n ℝ} (e0 : e 0 0 = 1) : de e 0 0 = 1 := by
  unfold de; rw [e0]; simp [lt2_one]

/-- The solution and its energy derivative solve one doubled system. -/
theorem shift_dual {V : ℝ → Mat n ℝ} {E a b : ℝ} {y dy z dz : ℝ → Matrix (Fin n) (Fin r) ℝ} (hy : MSolvesOn V E a b y dy) (hz : MEnergyOn V E a b y z dz) :
    (∀ x ∈ Set.Icc 0 (b - a), HasDerivWithinAt (fun x => st2 (y (a + x)) (z (a + x))) (st2 (dy (a + x)) (dz (a + x))) (Set.Icc 0 (b - a)) x) ∧
    (∀ x ∈ Set.Icc 0 (b - a), HasDerivWithinAt (fun x => st2 (dy (a + x)) (dz (a + x))) (lt2 (V (a + x) - E • (1 : Mat n ℝ)) (-1) * st2 (y (a + x)) (z (a + x))) (Set.Icc 0 (b - a)) x) := by
  have hm : Set.MapsTo (fun x => a + x) (Set.Icc 0 (b - a)) (Set.Icc a b) := fun x hx => ⟨by linarith [hx.1], by linarith [hx.2]⟩
  have hd : ∀ x, HasDerivWithinAt (fun x => a + x) 1 (Set.Icc 0 (b - a)) x := fun x => ((hasDerivAt_id x).const_add a).hasDerivWithinAt
  constructor
  · intro x hx
    refine st2_deriv (fun i j => ?_) (fun i j => ?_)
    · simpa [Function.comp_def] using (hy.d1 _ (hm hx) i j).comp x (hd x) hm
    · simpa [Function.comp_def] using (hz.d1 _ (hm hx) i j).comp x (hd x) hm
  · intro x hx
    rw [lt2_st2]
    refine st2_deriv (fun i j => ?_) (fun i j => ?_)
    · simpa [Function.comp_def] using (hy.d2 _ (hm hx) i j).comp x (hd x) hm
    · have := (hz.d2 _ (hm hx) i j).comp x (hd x) hm
      rw [mul_one] at this
      refine this.congr_deriv ?_
      rw [Matrix.neg_mul, Matrix.one_mul, neg_add_eq_sub]

set_option maxHeartbeats 1000000 in
theorem dual_near {M τ σ ρ : ℝ} (hM : 0 ≤ M) (hτ : 0 ≤ τ) (hτ1 : τ ≤ 1) (hσ1 : σ ≤ 1) (hρ1 : ρ ≤ 1) {q : MTerm → ℝ} (hq : LitWithin ρ q) {eta : ℕ → ℝ → ℕ → ℝ} (he : EtaWithin σ eta)
    {V : ℝ → Mat n ℝ} {c : ℕ → Mat n ℝ} {Q : Mat n ℝ}
    {s : Mesh.Sec ℝ} (hs : s.min < s.max) (h1 : s.max - s.min ≤ 1) (hV : MSmoothOn M V s.min s.max) (hc : MCoeffWithin τ V s.min s.max c) (hQ : Diagonalizes Q (c 0))
    {E : ℝ} (hE : |E| ≤ M) {δ : ℝ} (hδ : δ ∈ Set.Icc 0 (s.max - s.min)) {useH : Bool} (hu : useH = true → δ = s.max - s.min) :
    ‖(tnOf (calcFromVEd q eta (mkMSec c Q s) δ (vedOf (mkMSec c Q s) E δ) useH)).dt‖ ≤ dsC n M * (s.max - s.min + σ) ∧
    ∀ (r : ℕ) (y dy z dz : ℝ → Matrix (Fin n) (Fin r) ℝ) (S : ℝ), MSolvesOn (orientM V s) E s.min s.max y dy → MEnergyOn (orientM V s) E s.min s.max y z dz →
      ‖y s.min‖ ≤ S → ‖dy s.min‖ ≤ S → ‖z s.min‖ ≤ S → ‖dz s.min‖ ≤ S →
      ‖(tnOf (calcFromVEd q eta (mkMSec c Q s) δ (vedOf (mkMSec c Q s) E δ) useH)).t * Matrix.fromRows (z s.min) (dz s.min) +
        (tnOf (calcFromVEd q eta (mkMSec c Q s) δ (vedOf (mkMSec c Q s) E δ) useH)).dt * Matrix.fromRows (y s.min) (dy s.min) - Matrix.fromRows (z (s.min + δ)) (dz (s.min + δ))‖ ≤
        dsC n M * ((s.max - s.min) ^ ordM useH + (s.max - s.min) * (ρ + τ) + σ) * S := by
  obtain ⟨w, v, Z, hv, hZ, wq, w9, hWn, hb, hN⟩ := setup hM hτ hτ1 hσ1 hq.1 he hs h1 hV hc hQ hE q
  have hved : ∀ j, vedOf (mkMSec c Q s) E δ j = Z j * δ := fun j => by rw [← hZ j]; rfl
  have cb := calc_blocks hQ.orth q eta c s hved useH
  have db := dt_blocks hQ.orth q eta c s hved useH
  obtain ⟨t, ht⟩ : ∃ t, t = (calcFromVEd q eta (mkMSec c Q s) δ (vedOf (mkMSec c Q s) E δ) useH).t := ⟨_, rfl⟩
  obtain ⟨d, hd⟩ : ∃ d, d = (calcFromVEd q eta (mkMSec c Q s) δ (vedOf (mkMSec c Q s) E δ) useH).dt := ⟨_, rfl⟩
  rw [← ht] at cb
  rw [← hd] at db
  have htn : (tnOf (calcFromVEd q eta (mkMSec c Q s) δ (vedOf (mkMSec c Q s) E δ) useH)).t = Matrix.fromBlocks t.a t.b t.c t.d := by rw [ht]; rfl
  have hdn : (tnOf (calcFromVEd q eta (mkMSec c Q s) δ (vedOf (mkMSec c Q s) E δ) useH)).dt = Matrix.fromBlocks d.a d.b d.c d.d := by rw [hd]; rfl
  rw [htn, hdn]
  have hin : ∀ sel, IsBlock sel → ∀ f ∈ lst useH sel, InTables f.t := by
    intro sel hsel f hf
    cases useH with
    | true => exact inTables_H hsel hf
    | false => exact inTables_D hsel hf
  have hcong : ∀ sel, IsBlock sel → ∀ e, evc q (origV c s) e (s.max - s.min) δ (lst useH sel) = evc q v e (s.max - s.min) δ (lst useH sel) :=
    fun sel hsel e => evc_congr (fun k hk => (hv k hk).symm) _ (hin sel hsel)
  have Nd := hN δ hδ useH
  have bd := hb δ hδ
  have hnσ : 0 ≤ n * σ * n := mul_nonneg (mul_nonneg (Nat.cast_nonneg n) he.nonneg) (Nat.cast_nonneg n)
  have nb := blocks_near hq hu (near_dual Nd hnσ) (bnd_dual bd) (by linarith)
  have om := fun sel hsel => omit_small (sel := sel) hsel hq Nd bd (bd.e (etaN useH))
  obtain ⟨ca, cbb, cc, cd⟩ := cb
  obtain ⟨da, dbb, dc, dd⟩ := db
  have iA : IsBlock MEntry4.a := .inl rfl
  have iB : IsBlock MEntry4.b := .inr (.inl rfl)
  have iC : IsBlock MEntry4.c := .inr (.inr (.inl rfl))
  have iD : IsBlock MEntry4.d := .inr (.inr (.inr rfl))
  rw [hcong _ iA] at ca da
  rw [hcong _ iB] at cbb dbb
  rw [hcong _ iC, ← wq] at cc dc
  rw [hcong _ iD] at cd dd
  obtain ⟨na, nbb, nc, nd⟩ := nb
  rw [evc_dual _ _ _ _ _ _ _ (hin _ iA), ← ca] at na
  rw [evc_dual _ _ _ _ _ _ _ (hin _ iB), ← cbb] at nbb
  rw [evc_dual _ _ _ _ _ _ _ (hin _ iC), show dv w 9 = lt2 (w 9) (-1) by simp [dv], lt2_mul, lt2_smul, lt2_add, ← cc] at nc
  rw [evc_dual _ _ _ _ _ _ _ (hin _ iD), ← cd] at nd
  have oa := om _ iA
  have ob := om _ iB
  have oc := om _ iC
  have od := om _ iD
  rw [← da] at oa
  rw [← dbb] at ob
  rw [← dd] at od
  have oc' : ‖d.c - (δ • (-1 * codeE eta Q Z (etaN useH) δ 1 + w 9 * dEtaX (etaN useH) (codeE eta Q Z (etaN useH) δ) (etaM Q Z (etaN useH) δ) δ 1) +
      evc q v (dEtaX (etaN useH) (codeE eta Q Z (etaN useH) δ) (etaM Q Z (etaN useH) δ) δ) (s.max - s.min) δ (lst useH MEntry4.c))‖ ≤
      oX MEntry4.c (gB n M) * ((s.max - s.min) ^ ordM useH + (s.max - s.min) * (ρ + n * tau M τ (s.max - s.min))) := by
    have x1 : dEtaX (etaN useH) (codeE eta Q Z (etaN useH) δ) (etaM Q Z (etaN useH) δ) δ 1 = (-δ * δ / 2) • codeE eta Q Z (etaN useH) δ 2 := by
      unfold dEtaX
      rw [if_pos (by cases useH <;> decide)]
    have x2 : ∀ (e1 e2 W E1 E2 : Mat n ℝ), (-δ • e1 - (δ * δ / 2) • (δ • (W * e2)) + E1) - (δ • (-1 * e1 + W * ((-δ * δ / 2) • e2)) + E2) = E1 - E2 := by
      intro e1 e2 W E1 E2
      rw [neg_one_mul, mul_smul_comm]
      module
    rw [x1, dc, x2]
    exact oc
  clear oc om
  replace na := lt2_near na oa
  replace nbb := lt2_near nbb ob
  replace nc := lt2_near nc oc'
  replace nd := lt2_near nd od
  clear oa ob oc' od ca cbb cc cd da dbb dc dd hcong hin hN Nd
  obtain ⟨h, hh⟩ : ∃ h, h = s.max - s.min := ⟨_, rfl⟩
  rw [← hh] at h1 hδ hWn hb bd na nbb nc nd ⊢
  have h0 : 0 < h := by rw [hh]; linarith
  have hn : (0 : ℝ) ≤ n := Nat.cast_nonneg _
  have hσ := he.nonneg
  have hfam : EtaFam (dv w) (de (etaM Q Z)) := etaFam_dual (etaFam hQ.orth wq)
  have e0 := de_zero (etaM_zero hQ.orth Z)
  have B0 : 0 ≤ gB n M := by linarith [bd.B1]
  obtain ⟨X, hX⟩ : ∃ X, X = h ^ ordM useH + h * (ρ + τ) + σ := ⟨_, rfl⟩
  have p0 : 0 ≤ h ^ ordM useH := by positivity
  have p1 : 0 ≤ h * (ρ + τ) := mul_nonneg h0.le (add_nonneg hq.1 hτ)
  have hX0 : 0 ≤ X := by rw [hX]; linarith
  have q2 : h ^ 10 ≤ h ^ ordM useH := pow_le_pow_of_le_one h0.le h1 (by cases useH <;> decide)
  have q3 : h ^ ordM useH ≤ h := by simpa using pow_le_pow_of_le_one h0.le h1 (show 1 ≤ ordM useH by cases useH <;> decide)
  have hX1 := x_le (n := n) hM hτ hσ hq.1 h0.le h1 useH
  rw [← hX] at hX1
  have k0 : (0 : ℝ) ≤ 1 + n + 31 * n * M + n * n := by positivity
  have t0 : 0 ≤ h * (ρ + n * tau M τ h) := mul_nonneg h0.le (add_nonneg hq.1 (mul_nonneg hn (tau_nonneg hM hτ h0.le)))
  obtain ⟨G, hG⟩ : ∃ G, G = dgC n M := ⟨_, rfl⟩
  have bC0 : 0 ≤ bC (2 * gB n M) := bC_nonneg (by linarith)
  have o1 := oX_nonneg MEntry4.a B0
  have o2 := oX_nonneg MEntry4.b B0
  have o3 := oX_nonneg MEntry4.c B0
  have o4 := oX_nonneg MEntry4.d B0
  have G0 : 0 ≤ G := by rw [hG]; unfold dgC; positivity
  have tot0 : ∀ o, 0 ≤ o → o ≤ oX MEntry4.a (gB n M) + oX MEntry4.b (gB n M) + oX MEntry4.c (gB n M) + oX MEntry4.d (gB n M) →
      o * (h ^ ordM useH + h * (ρ + n * tau M τ h)) + bC (2 * gB n M) * (h ^ ordM useH + h * (ρ + n * tau M τ h) + 2 * (n * σ * n)) ≤ G * X := by
    intro o ho ho'
    rw [hG]; unfold dgC
    generalize oX MEntry4.a (gB n M) + oX MEntry4.b (gB n M) + oX MEntry4.c (gB n M) + oX MEntry4.d (gB n M) = O at ho'
    generalize bC (2 * gB n M) = b at bC0
    have f1 : h ^ ordM useH + h * (ρ + n * tau M τ h) ≤ (1 + n + 31 * n * M + n * n) * X := by linarith
    have f2 : h ^ ordM useH + h * (ρ + n * tau M τ h) + 2 * (n * σ * n) ≤ 2 * ((1 + n + 31 * n * M + n * n) * X) := by linarith
    have f3 : 0 ≤ (1 + n + 31 * n * M + n * n) * X := mul_nonneg k0 hX0
    calc _ ≤ O * ((1 + n + 31 * n * M + n * n) * X) + b * (2 * ((1 + n + 31 * n * M + n * n) * X)) :=
          add_le_add (mul_le_mul ho' f1 (by linarith) (by linarith)) (mul_le_mul_of_nonneg_left f2 bC0)
      _ = _ := by ring
  replace na := na.trans (tot0 _ o1 (by linarith))
  replace nbb := nbb.trans (tot0 _ o2 (by linarith))
  replace nc := nc.trans (tot0 _ o3 (by linarith))
  replace nd := nd.trans (tot0 _ o4 (by linarith))
  clear tot0
  have b2 : ∀ δ ∈ Set.Icc 0 h, Bnd (2 * gB n M) (dv w) (atd (de (etaM Q Z)) δ) h δ := fun δ hδ => bnd_dual (hb δ hδ)
  have hV2 : ∀ x ∈ Set.Icc 0 h, ‖lt2 (orientM V s (s.min + x) - E • (1 : Mat n ℝ)) (-1) - (dv w 9 + dVm (dv w) h x)‖ ≤ n * (3504 * M * h ^ 9 + τ) := by
    intro x hx
    rw [dVm_dual, show dv w 9 = lt2 (w 9) (-1) by simp [dv], lt2_add, lt2_sub, add_zero, sub_self, w9]
    have := norm_lt2_le (hWn x hx) (le_of_eq (norm_zero (E := Mat n ℝ)))
    rw [add_zero] at this
    rwa [show orientM V s (s.min + x) - E • (1 : Mat n ℝ) - (w 0 - E • 1 + dVm w h x) = orientM V s (s.min + x) - (w 0 + dVm w h x) by abel]
  have hκ : n * (3504 * M * h ^ 9 + τ) ≤ 2 * gB n M := by
    have z1 : 3504 * M * h ^ 9 + τ ≤ 3504 * M + 1 := by
      have : 3504 * M * h ^ 9 ≤ 3504 * M * 1 := mul_le_mul_of_nonneg_left (pow_le_one₀ h0.le h1) (by positivity)
      linarith
    have z2 := mul_le_mul_of_nonneg_left z1 hn
    have z3 : 0 ≤ n * (31 * M + 1) + 496 * M * n + M + n * (Real.exp (zB n M) + 1) * n + n * (1 + 31 * M) := by positivity
    have z4 : n * (3504 * M * h ^ 9 + τ) ≤ gB n M := by unfold gB; linarith
    linarith
  have st := fun r => step_from_blocks (r := r) hfam h0 (dv_commute w9) b2 e0 hV2 hκ hδ (mul_nonneg G0 hX0) na nbb nc nd
  obtain ⟨sc, hsc⟩ : ∃ sc, sc = sC (2 * gB n M) := ⟨_, rfl⟩
  obtain ⟨R, hR⟩ : ∃ R, R = rCof Ua Ub Uc Ud (2 * gB n M) := ⟨_, rfl⟩
  have R0 : 0 ≤ R := by
    rw [hR]
    obtain ⟨r1, r2, r3, r4, r5, r6⟩ := rC_parts Ua Ub Uc Ud (show 0 ≤ 2 * gB n M by linarith)
    unfold rCof; linarith
  obtain ⟨x, hx⟩ : ∃ x, x = Real.exp (10 * (2 * gB n M) + 2) := ⟨_, rfl⟩
  have x0 : 0 ≤ x := by rw [hx]; exact (Real.exp_pos _).le
  have hC : dsC n M = 1 + 6 * G + 2 * sc + R * (1 + 3504 * n * M + n) * x := by rw [dsC, ← hG, ← hsc, ← hR, ← hx]
  have RX0 : 0 ≤ R * (1 + 3504 * n * M + n) * x := by positivity
  have sc0 : 0 ≤ sc := by
    rw [hsc]; unfold sC
    have B2 : 0 ≤ 2 * gB n M := by linarith
    exact add_nonneg (add_nonneg (add_nonneg (cB_nonneg B2 _) (cB_nonneg B2 _)) (cB_nonneg B2 _)) (cB_nonneg B2 _)
  simp only [← hsc, ← hR, ← hx] at st
  constructor
  · obtain ⟨⟨fa, fb, fc, fd⟩, -⟩ := st 0
    have hX3 : X ≤ 3 * (h + σ) := by
      rw [hX]
      have : h * (ρ + τ) ≤ h * 2 := mul_le_mul_of_nonneg_left (by linarith) h0.le
      linarith
    have m1 : G * X ≤ 3 * G * (h + σ) := by
      have := mul_le_mul_of_nonneg_left hX3 G0; linarith
    have m2 : sc * h ≤ sc * (h + σ) := mul_le_mul_of_nonneg_left (by linarith) sc0
    have tot : (G * X + sc * h) + (G * X + sc * h) ≤ dsC n M * (h + σ) := by
      rw [hC]
      have := mul_nonneg RX0 (show 0 ≤ h + σ by linarith)
      linarith
    have ga : ‖d.a‖ ≤ G * X + sc * h := by
      refine le_trans ?_ fa
      rw [← lt2_one, lt2_sub, sub_zero]; exact norm_lt2_bot _ _
    have gd : ‖d.d‖ ≤ G * X + sc * h := by
      refine le_trans ?_ fd
      rw [← lt2_one, lt2_sub, sub_zero]; exact norm_lt2_bot _ _
    have gb := (norm_lt2_bot t.b d.b).trans fb
    have gc := (norm_lt2_bot t.c d.c).trans fc
    exact norm_fromBlocks_le ((add_le_add ga gb).trans tot) ((add_le_add gc gd).trans tot)
  · intro r y dy z dz S hy hz s1 s2 s3 s4
    have hS : 0 ≤ S := (norm_nonneg _).trans s1
    obtain ⟨d1, d2⟩ := shift_dual hy hz
    rw [← hh] at d1 d2
    have k := (st r).2 _ _ S d1 d2 (by simpa using norm_st2_le s1 s3) (by simpa using norm_st2_le s2 s4)
    simp only [add_zero, lt2_st2, st2_add, st2_sub] at k
    have fin : R * (h ^ 9 + n * (3504 * M * h ^ 9 + τ)) * S * h * x ≤ R * (1 + 3504 * n * M + n) * x * X * S := by
      have z1 : (h ^ 9 + n * (3504 * M * h ^ 9 + τ)) * h ≤ (1 + 3504 * n * M + n) * X := by
        have a1 : h ^ 10 ≤ X := by rw [hX]; linarith
        have a2 : h * τ ≤ X := by rw [hX]; have := mul_nonneg h0.le hq.1; linarith
        have b1 := mul_le_mul_of_nonneg_left a1 (show 0 ≤ 1 + 3504 * n * M by positivity)
        have b2 := mul_le_mul_of_nonneg_left a2 hn
        nlinarith only [b1, b2]
      calc R * (h ^ 9 + n * (3504 * M * h ^ 9 + τ)) * S * h * x = R * x * S * ((h ^ 9 + n * (3504 * M * h ^ 9 + τ)) * h) := by ring
        _ ≤ R * x * S * ((1 + 3504 * n * M + n) * X) := mul_le_mul_of_nonneg_left z1 (by positivity)
        _ = _ := by ring
    have tot : G * X * S + G * X * S + R * (h ^ 9 + n * (3504 * M * h ^ 9 + τ)) * S * h * x ≤ dsC n M * X * S := by
      have : 0 ≤ (1 + 4 * G + 2 * sc) * X * S := by positivity
      rw [hC]
      linarith
    have ka := ((norm_st2_bot _ _).trans k.1).trans tot
    have kc := ((norm_st2_bot _ _).trans k.2).trans tot
    rw [Matrix.fromBlocks_mul_fromRows, Matrix.fromBlocks_mul_fromRows]
    have e2 : ∀ a b c d e f : Matrix (Fin n) (Fin r) ℝ, Matrix.fromRows a b + Matrix.fromRows e f - Matrix.fromRows c d = Matrix.fromRows (a + e - c) (b + f - d) := by
      intro a b c d e f; ext i j; cases i <;> simp
    rw [e2, ← hX]
    refine norm_fromRows_le (le_trans (le_of_eq ?_) ka) (le_trans (le_of_eq ?_) kc)
    · congr 1; abel
    · congr 1; abel

end
end Verif.NP
