import Verif.Lemmas.MatscsSetup

/-!
# One step of a coupled system against the exact solution
-/
namespace Verif.NP
open Verif.MFormulas Verif.Legendre
open scoped BigOperators

attribute [local instance] Matrix.linftyOpNormedAddCommGroup Matrix.linftyOpNormedSpace Matrix.linftyOpNormedRing Matrix.linftyOpNormedAlgebra

section
variable {n r : ℕ}

/-! ### Words of the tables -/

set_option maxRecDepth 1000000 in
theorem letters_all : allTerms.all (fun t => t.w.all (fun k => Nat.blt k 9)) = true := by decide +kernel

theorem word_congr {v w : ℕ → Mat n ℝ} {l : List ℕ} (h : ∀ k ∈ l, v k = w k) : word v l = word w l := by
  induction l with
  | nil => rfl
  | cons k l ih => rw [word, word, h k (by simp), ih (fun k hk => h k (by simp [hk]))]

theorem evc_congr {q : MTerm → ℝ} {v w e : ℕ → Mat n ℝ} {h δ : ℝ} (hvw : ∀ k < 9, v k = w k) (l : List FT) (hl : ∀ f ∈ l, InTables f.t) : evc q v e h δ l = evc q w e h δ l := by
  induction l with
  | nil => rfl
  | cons f l ih =>
    rw [evc, evc, ih (fun f hf => hl f (by simp [hf])), FT.val, FT.val]
    congr 3
    refine word_congr (fun k hk => hvw k ?_)
    have h1 := List.all_eq_true.mp letters_all f.t (mem_allTerms.mpr (hl f (by simp)))
    exact Nat.blt_eq.mp (List.all_eq_true.mp h1 k hk)

theorem inTables_D {sel : MEntry4 → MEntry} (hs : IsBlock sel) {f : FT} (hf : f ∈ rowsF sel 0 tDelta) : InTables f.t := by
  obtain ⟨-, row, hr, e, he, p, hp, ht⟩ := mem_rowsF hf
  exact ⟨e, .inr ⟨row, hr, he⟩, p, hs.sub hp, ht⟩

theorem inTables_H {sel : MEntry4 → MEntry} (hs : IsBlock sel) {f : FT} (hf : f ∈ hF sel 0 tH) : InTables f.t := by
  obtain ⟨-, e, he, p, hp, ht⟩ := mem_hF hf
  exact ⟨e, .inl he, p, hs.sub hp, ht⟩

/-! ### Blocks against the exact tables -/

theorem ev_atH (v e : ℕ → Mat n ℝ) (h : ℝ) (l : NP) : ev v e h h (atH l) = ev v e h h l := by
  induction l with
  | nil => rfl
  | cons m l ih =>
    unfold atH at ih ⊢
    rw [List.map_cons, ev, ev, ih]
    congr 2
    simp [RM.mon, mk, pow_add]

theorem norm_smul_frac {x : Mat n ℝ} {c : ℝ} (h : ‖x‖ ≤ c) : ‖(1 / 40320 : ℝ) • x‖ ≤ c := by
  rw [norm_smul, Real.norm_eq_abs, abs_of_nonneg (by norm_num)]
  have := norm_nonneg x
  linarith

/-- partial step -/
theorem blockD {sel : MEntry4 → MEntry} (hs : IsBlock sel) {ext : NP} (hext : ∀ m ∈ ext, 9 ≤ m.j + m.p) {B ρ τ σ : ℝ} {q : MTerm → ℝ} (hq : LitWithin ρ q)
    {v w e' e : ℕ → Mat n ℝ} {h δ : ℝ} (N : Near 5 B ρ τ σ q v w e' e h δ) (b : Bnd B w e h δ) :
    ‖evc q v e' h δ (rowsF sel 0 tDelta) - (1 / 40320 : ℝ) • ev w e h δ (tD sel ++ ext)‖ ≤ pB B (rowsF sel 0 tDelta) * (h * (ρ + τ) + σ) + cB B ext * h ^ 9 := by
  have h1 := evc_near N _ (fun f hf => termOk_D hs hq hf)
  have h2 := norm_smul_frac (b.ev_le 9 ext hext)
  have e1 : tD sel = (rowsF sel 0 tDelta).map FT.rm := by unfold tD; rw [rowsNP_eq]
  rw [ev_append, smul_add, e1]
  have e2 : ∀ x y z : Mat n ℝ, x - (y + z) = (x - y) - z := fun x y z => by abel
  rw [e2]
  exact (norm_sub_le _ _).trans (add_le_add h1 h2)

/-- full step -/
theorem blockH {sel : MEntry4 → MEntry} (hs : IsBlock sel) {U : NP} (hU : cancels 10 (hNP sel 0 tH ++ neg (atH U)) = true) {B ρ τ σ : ℝ} {q : MTerm → ℝ} (hq : LitWithin ρ q)
    {v w e' e : ℕ → Mat n ℝ} {h : ℝ} (N : Near 6 B ρ τ σ q v w e' e h h) (b : Bnd B w e h h) :
    ‖evc q v e' h h (hF sel 0 tH) - (1 / 40320 : ℝ) • ev w e h h U‖ ≤ pB B (hF sel 0 tH) * (h * (ρ + τ) + σ) + cB B (high 10 (hNP sel 0 tH ++ neg (atH U))) * h ^ 10 := by
  have h1 := evc_near N _ (fun f hf => termOk_H hs hq hf)
  have h2 := norm_smul_frac (b.cancel_le hU)
  rw [ev_append, ev_neg, ev_atH, hNP_eq] at h2
  rw [← hNP_eq] at h2 h1
  have e2 : evc q v e' h h (hF sel 0 tH) - (1 / 40320 : ℝ) • ev w e h h U = (evc q v e' h h (hF sel 0 tH) - (1 / 40320 : ℝ) • ev w e h h (hNP sel 0 tH)) +
      (1 / 40320 : ℝ) • (ev w e h h (hNP sel 0 tH) + -ev w e h h U) := by rw [smul_add, smul_neg]; abel
  rw [e2]
  exact (norm_add_le _ _).trans (add_le_add h1 h2)

/-- the term `e_1 · (V₀ - E) δ` of the lower left block -/
theorem kappa_near {B σ h δ : ℝ} {w e' e : ℕ → Mat n ℝ} (b : Bnd B w e h δ) (hee : ‖e' 1 - e 1‖ ≤ σ) :
    ‖δ • (w 9 * e' 1) - (1 / 40320 : ℝ) • ev w e h δ kappa‖ ≤ B * σ := by
  have e1 : (1 / 40320 : ℝ) • ev w e h δ kappa = δ • (w 9 * e 1) := by
    unfold kappa
    rw [ev_mk, smul_smul]
    simp [word, LL]
  rw [e1, ← smul_sub, ← mul_sub, norm_smul, Real.norm_eq_abs, abs_of_nonneg b.d0]
  have d1 : δ ≤ 1 := b.d1.trans b.h1
  have h2 : ‖w 9 * (e' 1 - e 1)‖ ≤ B * σ := (norm_mul_le _ _).trans (mul_le_mul (b.v 9) hee (norm_nonneg _) (by linarith [b.B1]))
  calc δ * ‖w 9 * (e' 1 - e 1)‖ ≤ 1 * ‖w 9 * (e' 1 - e 1)‖ := mul_le_mul_of_nonneg_right d1 (norm_nonneg _)
    _ ≤ B * σ := by rw [one_mul]; exact h2

/-- The exact tables start from the identity. -/
theorem iv_near_start {l : NP} (hl : ∀ m ∈ l, okD m = true) {B : ℝ} {v : ℕ → Mat n ℝ} {e : ℕ → ℝ → Mat n ℝ} (he : EtaFam v e) {h : ℝ}
    (b : ∀ δ ∈ Set.Icc 0 h, Bnd B v (atd e δ) h δ) {δ : ℝ} (hδ : δ ∈ Set.Icc 0 h) : ‖iv l v e h δ - iv l v e h 0‖ ≤ cB B (l.flatMap dmono) * h := by
  have h0 : 0 ≤ h := hδ.1.trans hδ.2
  have hB : 0 ≤ B := by linarith [(b δ hδ).B1]
  have key := (convex_Icc (0 : ℝ) h).norm_image_sub_le_of_norm_hasDerivWithin_le (f := iv l v e h) (f' := fun x => (1 / 40320 : ℝ) • ev v (atd e x) h x (l.flatMap dmono))
    (C := cB B (l.flatMap dmono)) (x := 0) (y := δ)
    (fun x _ => ((hasDerivAt_ev he h x l hl).const_smul (1 / 40320 : ℝ)).hasDerivWithinAt)
    (fun x hx => norm_smul_frac (by simpa using (b x hx).ev_le 0 (l.flatMap dmono) (fun _ _ => Nat.zero_le _))) ⟨le_rfl, h0⟩ hδ
  refine key.trans (mul_le_mul_of_nonneg_left ?_ (cB_nonneg hB _))
  rw [sub_zero, Real.norm_eq_abs, abs_of_nonneg hδ.1]
  exact hδ.2

end
end Verif.NP
