import Verif.Lemmas.MatscsSector

/-!
# The transfer matrices of the code against the exact solution
-/
namespace Verif.NP
open Verif.MFormulas Verif.Legendre Verif.YT
open scoped BigOperators

attribute [local instance] Matrix.linftyOpNormedAddCommGroup Matrix.linftyOpNormedSpace Matrix.linftyOpNormedRing Matrix.linftyOpNormedAlgebra

section
variable {n r : ℕ}

/-- the lists used for a block -/
def lst (useH : Bool) (sel : MEntry4 → MEntry) : List FT := if useH then hF sel 0 tH else rowsF sel 0 tDelta

/-- number of η functions used -/
def etaN (useH : Bool) : ℕ := if useH then 6 else 5

/-- order of a step -/
def ordM (useH : Bool) : ℕ := if useH then 10 else 9

/-- constant of a block -/
noncomputable def bX (sel : MEntry4 → MEntry) (ext U : NP) (B : ℝ) : ℝ :=
  pB B (rowsF sel 0 tDelta) + cB B ext + (pB B (hF sel 0 tH) + cB B (high 10 (hNP sel 0 tH ++ neg (atH U))))

theorem bX_nonneg (sel : MEntry4 → MEntry) (ext U : NP) {B : ℝ} (hB : 0 ≤ B) : 0 ≤ bX sel ext U B :=
  add_nonneg (add_nonneg (pB_nonneg hB _) (cB_nonneg hB _)) (add_nonneg (pB_nonneg hB _) (cB_nonneg hB _))

theorem block_near {sel : MEntry4 → MEntry} (hs : IsBlock sel) {ext : NP} (hext : ∀ m ∈ ext, 9 ≤ m.j + m.p)
    (hU : cancels 10 (hNP sel 0 tH ++ neg (atH (tD sel ++ ext))) = true) {B ρ τ σ : ℝ} {q : MTerm → ℝ} (hq : LitWithin ρ q)
    {v w e' e : ℕ → Mat n ℝ} {h δ : ℝ} {useH : Bool} (hδ : useH = true → δ = h) (N : Near (etaN useH) B ρ τ σ q v w e' e h δ) (b : Bnd B w e h δ) (hσ : 0 ≤ σ) :
    ‖evc q v e' h δ (lst useH sel) - (1 / 40320 : ℝ) • ev w e h δ (tD sel ++ ext)‖ ≤ bX sel ext (tD sel ++ ext) B * (h ^ ordM useH + h * (ρ + τ) + σ) := by
  have hB : 0 ≤ B := by linarith [b.B1]
  have p1 := pB_nonneg hB (rowsF sel 0 tDelta)
  have p2 := cB_nonneg hB ext
  have p3 := pB_nonneg hB (hF sel 0 tH)
  have p4 := cB_nonneg hB (high 10 (hNP sel 0 tH ++ neg (atH (tD sel ++ ext))))
  have hτ : 0 ≤ τ := le_trans (mul_nonneg (norm_nonneg _) (pow_nonneg N.h0 _)) (N.nvw 0)
  have x1 : 0 ≤ h * (ρ + τ) + σ := add_nonneg (mul_nonneg N.h0 (add_nonneg N.nρ0 hτ)) hσ
  cases useH with
  | true =>
    obtain rfl := hδ rfl
    have := blockH hs hU hq N b
    have x2 : 0 ≤ δ ^ 10 := pow_nonneg N.h0 _
    refine this.trans ?_
    show _ ≤ bX sel ext (tD sel ++ ext) B * (δ ^ 10 + δ * (ρ + τ) + σ)
    rw [bX, show δ ^ 10 + δ * (ρ + τ) + σ = δ ^ 10 + (δ * (ρ + τ) + σ) by ring]
    generalize δ * (ρ + τ) + σ = X at *
    generalize δ ^ 10 = Y at *
    have := mul_nonneg p1 x1; have := mul_nonneg p1 x2; have := mul_nonneg p2 x1; have := mul_nonneg p2 x2; have := mul_nonneg p3 x2; have := mul_nonneg p4 x1
    simp only [add_mul, mul_add]
    linarith
  | false =>
    have := blockD hs hext hq N b
    have x2 : 0 ≤ h ^ 9 := pow_nonneg N.h0 _
    refine this.trans ?_
    show _ ≤ bX sel ext (tD sel ++ ext) B * (h ^ 9 + h * (ρ + τ) + σ)
    rw [bX, show h ^ 9 + h * (ρ + τ) + σ = h ^ 9 + (h * (ρ + τ) + σ) by ring]
    generalize h * (ρ + τ) + σ = X at *
    generalize h ^ 9 = Y at *
    have := mul_nonneg p1 x2; have := mul_nonneg p2 x1; have := mul_nonneg p3 x1; have := mul_nonneg p3 x2; have := mul_nonneg p4 x1; have := mul_nonneg p4 x2
    simp only [add_mul, mul_add]
    linarith

theorem extA_high : ∀ m ∈ extA, 9 ≤ m.j + m.p := fun m hm => Nat.ble_eq.mp (List.all_eq_true.mp ext_high m (by simp [hm]))
theorem extB_high : ∀ m ∈ extB, 9 ≤ m.j + m.p := fun m hm => Nat.ble_eq.mp (List.all_eq_true.mp ext_high m (by simp [hm]))
theorem extC_high : ∀ m ∈ extC, 9 ≤ m.j + m.p := fun m hm => Nat.ble_eq.mp (List.all_eq_true.mp ext_high m (by simp [hm]))
theorem extD_high : ∀ m ∈ extD, 9 ≤ m.j + m.p := fun m hm => Nat.ble_eq.mp (List.all_eq_true.mp ext_high m (by simp [hm]))

/-- constant of all blocks -/
noncomputable def bC (B : ℝ) : ℝ :=
  bX MEntry4.a extA Ua B + bX MEntry4.b extB Ub B + bX MEntry4.c extC (tD MEntry4.c ++ extC) B + bX MEntry4.d extD Ud B + B

/-- All four blocks. -/
theorem blocks_near {B ρ τ σ : ℝ} {q : MTerm → ℝ} (hq : LitWithin ρ q)
    {v w e' : ℕ → Mat n ℝ} {e : ℕ → ℝ → Mat n ℝ} {h δ : ℝ} {useH : Bool} (hδ : useH = true → δ = h) (N : Near (etaN useH) B ρ τ σ q v w e' (atd e δ) h δ)
    (b : Bnd B w (atd e δ) h δ) (hσ : 0 ≤ σ) :
    ‖evc q v e' h δ (lst useH MEntry4.a) - iv Ua w e h δ‖ ≤ bC B * (h ^ ordM useH + h * (ρ + τ) + σ) ∧
    ‖evc q v e' h δ (lst useH MEntry4.b) - iv Ub w e h δ‖ ≤ bC B * (h ^ ordM useH + h * (ρ + τ) + σ) ∧
    ‖δ • (w 9 * e' 1) + evc q v e' h δ (lst useH MEntry4.c) - iv Uc w e h δ‖ ≤ bC B * (h ^ ordM useH + h * (ρ + τ) + σ) ∧
    ‖evc q v e' h δ (lst useH MEntry4.d) - iv Ud w e h δ‖ ≤ bC B * (h ^ ordM useH + h * (ρ + τ) + σ) := by
  have hB : 0 ≤ B := by linarith [b.B1]
  have hτ : 0 ≤ τ := le_trans (mul_nonneg (norm_nonneg _) (pow_nonneg N.h0 _)) (N.nvw 0)
  have x0 : 0 ≤ h * (ρ + τ) := mul_nonneg N.h0 (add_nonneg N.nρ0 hτ)
  have x2 : 0 ≤ h ^ ordM useH := pow_nonneg N.h0 _
  obtain ⟨X, hX⟩ : ∃ X, X = h ^ ordM useH + h * (ρ + τ) + σ := ⟨_, rfl⟩
  have x1 : 0 ≤ X := by rw [hX]; positivity
  have hσX : σ ≤ X := by rw [hX]; linarith
  have ka := block_near (.inl rfl) extA_high h_a hq hδ N b hσ
  have kb := block_near (.inr (.inl rfl)) extB_high h_b hq hδ N b hσ
  have kc := block_near (.inr (.inr (.inl rfl))) extC_high h_c hq hδ N b hσ
  have kd := block_near (.inr (.inr (.inr rfl))) extD_high h_d hq hδ N b hσ
  have kk := kappa_near (δ := δ) b (N.nee 1 (by cases useH <;> decide))
  rw [← hX] at ka kb kc kd ⊢
  have pa := bX_nonneg MEntry4.a extA Ua hB
  have pb := bX_nonneg MEntry4.b extB Ub hB
  have pc := bX_nonneg MEntry4.c extC (tD MEntry4.c ++ extC) hB
  have pd := bX_nonneg MEntry4.d extD Ud hB
  have ma := mul_nonneg pa x1; have mb := mul_nonneg pb x1; have mc := mul_nonneg pc x1; have md := mul_nonneg pd x1; have mB := mul_nonneg hB x1
  have hbc : bC B * X = bX MEntry4.a extA Ua B * X + bX MEntry4.b extB Ub B * X + bX MEntry4.c extC (tD MEntry4.c ++ extC) B * X + bX MEntry4.d extD Ud B * X + B * X := by
    unfold bC; ring
  rw [hbc]
  refine ⟨ka.trans ?_, kb.trans ?_, ?_, kd.trans ?_⟩
  · show bX MEntry4.a extA Ua B * X ≤ _
    linarith
  · show bX MEntry4.b extB Ub B * X ≤ _
    linarith
  · have e1 : δ • (w 9 * e' 1) + evc q v e' h δ (lst useH MEntry4.c) - iv Uc w e h δ = (δ • (w 9 * e' 1) - (1 / 40320 : ℝ) • ev w (atd e δ) h δ kappa) +
        (evc q v e' h δ (lst useH MEntry4.c) - (1 / 40320 : ℝ) • ev w (atd e δ) h δ (tD MEntry4.c ++ extC)) := by
      unfold iv Uc
      rw [ev_append, smul_add]; abel
    rw [e1]
    have := (norm_add_le _ _).trans (add_le_add kk kc)
    have := mul_le_mul_of_nonneg_left hσX hB
    linarith
  · show bX MEntry4.d extD Ud B * X ≤ _
    linarith

/-- constant of the distance from the identity -/
noncomputable def sC (B : ℝ) : ℝ := cB B (Ua.flatMap dmono) + cB B (Ub.flatMap dmono) + cB B (Uc.flatMap dmono) + cB B (Ud.flatMap dmono)

end
end Verif.NP
