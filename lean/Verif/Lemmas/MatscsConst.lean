import Verif.Lemmas.MatscsFlat
import Verif.Lemmas.ArgExact
import Verif.Spec.Coupled

/-!
# Constant potentials: the tables reduce to the exact transfer matrix
-/
namespace Verif.NP
open Verif.MFormulas Verif.YT

section
variable {K A : Type} [Field K] [Ring A] [Algebra K A]

theorem word_zero {v : ℕ → A} (hv : ∀ k, k ≠ 0 → v k = 0) {w : List ℕ} (hw : w.all (· == 0) = false) : word v w = 0 := by
  induction w with
  | nil => simp at hw
  | cons k w ih =>
    rw [word]
    by_cases hk : k = 0
    · rw [ih (by simpa [hk] using hw), mul_zero]
    · rw [hv k hk, zero_mul]

/-- Only the words in `v 0` remain. -/
theorem evc_const (q : MTerm → K) {v : ℕ → A} (hv : ∀ k, k ≠ 0 → v k = 0) (e : ℕ → A) (h δ : K) (l : List FT) :
    evc q v e h δ l = evc q v e h δ (l.filter (fun f => f.t.w.all (· == 0))) := by
  induction l with
  | nil => rfl
  | cons f l ih =>
    by_cases hf : f.t.w.all (· == 0) = true
    · rw [List.filter_cons_of_pos (by exact hf), evc, evc, ih]
    · rw [List.filter_cons_of_neg (by exact hf), evc, ih, FT.val, word_zero hv (by simpa using hf), zero_mul, smul_zero, zero_add]

end

deriving instance DecidableEq for FT

set_option maxRecDepth 1000000 in
theorem constA : (rowsF MEntry4.a 0 tDelta).filter (fun f => f.t.w.all (· == 0)) = [⟨0, 0, 0, ⟨10, 1, []⟩⟩] := by decide +kernel
set_option maxRecDepth 1000000 in
theorem constB : (rowsF MEntry4.b 0 tDelta).filter (fun f => f.t.w.all (· == 0)) = [⟨1, 1, 0, ⟨10, 1, []⟩⟩] := by decide +kernel
set_option maxRecDepth 1000000 in
theorem constC : (rowsF MEntry4.c 0 tDelta).filter (fun f => f.t.w.all (· == 0)) = [] := by decide +kernel
set_option maxRecDepth 1000000 in
theorem constD : (rowsF MEntry4.d 0 tDelta).filter (fun f => f.t.w.all (· == 0)) = [⟨0, 0, 0, ⟨10, 1, []⟩⟩] := by decide +kernel
set_option maxRecDepth 1000000 in
theorem constHA : (hF MEntry4.a 0 tH).filter (fun f => f.t.w.all (· == 0)) = [⟨0, 0, 0, ⟨10, 1, []⟩⟩] := by decide +kernel
set_option maxRecDepth 1000000 in
theorem constHB : (hF MEntry4.b 0 tH).filter (fun f => f.t.w.all (· == 0)) = [⟨1, 0, 1, ⟨10, 1, []⟩⟩] := by decide +kernel
set_option maxRecDepth 1000000 in
theorem constHC : (hF MEntry4.c 0 tH).filter (fun f => f.t.w.all (· == 0)) = [] := by decide +kernel
set_option maxRecDepth 1000000 in
theorem constHD : (hF MEntry4.d 0 tH).filter (fun f => f.t.w.all (· == 0)) = [⟨0, 0, 0, ⟨10, 1, []⟩⟩] := by decide +kernel

variable {n : ℕ}

/-- The transfer matrix of a constant potential, in the eigenbasis. -/
noncomputable def constM2 (VEd : Fin n → ℝ) (δ : ℝ) : M2 (Mat n ℝ) :=
  ⟨Matrix.diagonal fun j => Eta.eta 0 (VEd j * δ), Matrix.diagonal fun j => δ * Eta.eta 1 (VEd j * δ),
    Matrix.diagonal fun j => Eta.eta 1 (VEd j * δ) * VEd j, Matrix.diagonal fun j => Eta.eta 0 (VEd j * δ)⟩

theorem m2ext {A : Type} : ∀ x y : M2 A, x.a = y.a → x.b = y.b → x.c = y.c → x.d = y.d → x = y := by
  rintro ⟨⟩ ⟨⟩ h1 h2 h3 h4
  simp only at h1 h2 h3 h4
  subst h1 h2 h3 h4
  rfl

section
variable {K A : Type} [Field K] [Ring A] [Algebra K A]

theorem bodyD_const {q : MTerm → K} (hq : q ⟨10, 1, []⟩ = 1) {v : ℕ → A} (hv : ∀ k, k ≠ 0 → v k = 0) (e : ℕ → A) (h δ : K) (VEd : A) :
    (bodyM MFormulas.etaDelta (fun i => hornerM (coeffD q v h i) δ MFormulas.hmaxDelta) e VEd δ).t = ⟨e 0, δ • e 1, e 1 * VEd, e 0⟩ := by
  have A1 := of_bodyD q v e h δ blkA VEd
  have B1 := of_bodyD q v e h δ blkB VEd
  have C1 := of_bodyD q v e h δ blkC VEd
  have D1 := of_bodyD q v e h δ blkD VEd
  rw [evc_const q hv] at A1 B1 C1 D1
  simp only [blkA, blkB, blkC, blkD, constA, constB, constC, constD, evc, FT.val, hq, word] at A1 B1 C1 D1
  generalize bodyM MFormulas.etaDelta (fun i => hornerM (coeffD q v h i) δ MFormulas.hmaxDelta) e VEd δ = t at *
  exact m2ext _ _ (by simpa using A1) (by simpa using B1) (by simpa using C1) (by simpa using D1)

theorem bodyH_const {q : MTerm → K} (hq : q ⟨10, 1, []⟩ = 1) {v : ℕ → A} (hv : ∀ k, k ≠ 0 → v k = 0) (e : ℕ → A) (h δ : K) (VEd : A) :
    (bodyM MFormulas.etaH (coeffH q v h) e VEd δ).t = ⟨e 0, h • e 1, e 1 * VEd, e 0⟩ := by
  have A1 := of_bodyH q v e h δ blkA VEd
  have B1 := of_bodyH q v e h δ blkB VEd
  have C1 := of_bodyH q v e h δ blkC VEd
  have D1 := of_bodyH q v e h δ blkD VEd
  rw [evc_const q hv] at A1 B1 C1 D1
  simp only [blkA, blkB, blkC, blkD, constHA, constHB, constHC, constHD, evc, FT.val, hq, word] at A1 B1 C1 D1
  generalize bodyM MFormulas.etaH (coeffH q v h) e VEd δ = t at *
  exact m2ext _ _ (by simpa using A1) (by simpa using B1) (by simpa using C1) (by simpa using D1)

end

theorem const_calc {q : MTerm → ℝ} (hq : q ⟨10, 1, []⟩ = 1) {s : MSec n ℝ} (hv : ∀ k, k ≠ 0 → s.vs k = 0) {δ : ℝ} (VEd : Fin n → ℝ) {useH : Bool}
    (hd : useH = true → δ = s.h) : (calcFromVEd q Matscs.exactEta s δ VEd useH).t = conjM s.Q (constM2 VEd δ) := by
  cases useH with
  | false =>
    have := bodyD_const hq hv (fun i => Matrix.diagonal (fun j => Matscs.exactEta MFormulas.etaDelta (VEd j * δ) i)) s.h δ (Matrix.diagonal VEd)
    refine congrArg (conjM s.Q) (this.trans ?_)
    simp [constM2, Matscs.exactEta, ← Matrix.diagonal_smul, Pi.smul_def]
  | true =>
    have := bodyH_const hq hv (fun i => Matrix.diagonal (fun j => Matscs.exactEta MFormulas.etaH (VEd j * δ) i)) s.h δ (Matrix.diagonal VEd)
    refine congrArg (conjM s.Q) (this.trans ?_)
    simp [constM2, Matscs.exactEta, ← Matrix.diagonal_smul, Pi.smul_def, hd]

theorem const_zero (VEd : Fin n → ℝ) : constM2 (n := n) VEd 0 = ⟨1, 0, Matrix.diagonal VEd, 1⟩ := by
  have z0 : Eta.eta 0 0 = 1 := by simp [Eta.eta_zero_right, Eta.oddFact]
  have z1 : Eta.eta 1 0 = 1 := by simp [Eta.eta_zero_right, Eta.oddFact]
  simp [constM2, z0, z1]

/-- The transfer matrix of the model for every step that it distinguishes exactly (`eps = 0`). -/
theorem const_T {q : MTerm → ℝ} (hq : q ⟨10, 1, []⟩ = 1) {s : MSec n ℝ} (hQ : s.Q * s.Q.transpose = 1) (hv : ∀ k, k ≠ 0 → s.vs k = 0) (E δ : ℝ) (useH : Bool) :
    (calculateTM 0 q Matscs.exactEta s E δ useH).t = conjM s.Q (constM2 (vedOf s E δ) δ) := by
  have ab : ∀ x : ℝ, Eta.absK x ≤ 0 ↔ x = 0 := by
    intro x
    unfold Eta.absK
    simp only [ccmp_lt, decide_eq_true_eq]
    split
    · constructor <;> intro <;> linarith
    · constructor <;> intro <;> linarith
  unfold calculateTM
  simp only [ccmp_le, decide_eq_true_eq, Bool.and_eq_true, ab]
  by_cases h0 : δ = 0
  · rw [if_pos h0, h0, const_zero]
    have : vedOf s E 0 = fun _ => 0 := by funext j; simp [vedOf]
    simp [oneM, conjM, this, hQ]
  rw [if_neg h0]
  by_cases h1 : useH = true ∧ δ - s.h = 0
  · rw [if_pos h1, const_calc hq hv _ (fun _ => rfl), show δ = s.h by linarith [h1.2]]
  · rw [if_neg h1, const_calc hq hv _ (by simp)]

end Verif.NP
