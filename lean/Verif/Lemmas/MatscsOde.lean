import Verif.Lemmas.NPolyD
import Verif.Lemmas.MatscsKernel
import Mathlib.Analysis.ODE.Gronwall
import Mathlib.Analysis.Calculus.Deriv.Prod

/-!
# The exact tables of coupled systems nearly solve the matrix equation
-/
namespace Verif.NP
open Verif.MFormulas Verif.Legendre

section
variable {A : Type} [NormedRing A] [NormedAlgebra ℝ A]

theorem high_mem {N : ℕ} {l : NP} {m : RM} (hm : m ∈ high N l) : N ≤ m.j + m.p := by
  unfold high at hm
  rw [List.mem_filter] at hm
  have h := hm.2
  by_contra hc
  have : Nat.blt (m.j + m.p) N = true := Nat.blt_eq.mpr (by omega)
  rw [this] at h
  simp at h

/-- The bounds of a sector: `B` bounds the unit, the letters and the η functions. -/
structure Bnd (B : ℝ) (v e : ℕ → A) (h δ : ℝ) : Prop where
  B1 : 1 ≤ B
  one : ‖(1 : A)‖ ≤ B
  h0 : 0 ≤ h
  h1 : h ≤ 1
  d0 : 0 ≤ δ
  d1 : δ ≤ h
  v : ∀ k, ‖v k‖ ≤ B
  e : ∀ i, ‖e i‖ ≤ B

theorem Bnd.ev_le {B : ℝ} {v e : ℕ → A} {h δ : ℝ} (b : Bnd B v e h δ) (N : ℕ) (l : NP) (hN : ∀ m ∈ l, N ≤ m.j + m.p) : ‖ev v e h δ l‖ ≤ cB B l * h ^ N :=
  norm_ev_le b.B1 b.one b.h0 b.h1 b.d0 b.d1 N l (fun _ _ k _ => b.v k) (fun m _ => b.e m.i) hN

theorem Bnd.cancel_le {B : ℝ} {v e : ℕ → A} {h δ : ℝ} (b : Bnd B v e h δ) {N : ℕ} {l : NP} (hc : cancels N l = true) : ‖ev v e h δ l‖ ≤ cB B (high N l) * h ^ N := by
  rw [cancels_ev v e h δ hc]
  exact b.ev_le N _ (fun m hm => high_mem hm)

/-- If the residuals cancel below power 9, the functions solve the equation up to `O(h^9)`. -/
theorem resid {U W : NP} (h1 : cancels 9 (res1 U W) = true) (h2 : cancels 9 (res2 U W) = true) (oU : ∀ m ∈ U, okD m = true) (oW : ∀ m ∈ W, okD m = true)
    (oP : ∀ m ∈ U, okP m = true) {B : ℝ} {v : ℕ → A} {e : ℕ → ℝ → A} (he : EtaFam v e) {h δ : ℝ} (hh : 0 < h) (hv : ∀ k, Commute (v 9 - v 0) (v k)) (b : Bnd B v (atd e δ) h δ) :
    ∃ du dw, HasDerivAt (fun δ => ev v (atd e δ) h δ U) du δ ∧ HasDerivAt (fun δ => ev v (atd e δ) h δ W) dw δ ∧
      ‖du - ev v (atd e δ) h δ W‖ ≤ cB B (high 9 (res1 U W)) * h ^ 9 ∧
      ‖dw - (v 9 + dVm v h δ) * ev v (atd e δ) h δ U‖ ≤ cB B (high 9 (res2 U W)) * h ^ 9 := by
  refine ⟨_, _, hasDerivAt_ev he h δ U oU, hasDerivAt_ev he h δ W oW, ?_, ?_⟩
  · have := b.cancel_le h1
    unfold res1 at this ⊢
    rwa [ev_append, ev_neg, ← sub_eq_add_neg] at this
  · have := b.cancel_le h2
    unfold res2 at this ⊢
    rwa [ev_append, ev_neg, ← sub_eq_add_neg, ev_pots he hh.ne' δ hv U oP] at this

theorem ev_zero (v e : ℕ → A) (h : ℝ) (l : NP) : ev v e h 0 l = ev v e h 0 (l.filter (fun m => m.j == 0)) := by
  induction l with
  | nil => rfl
  | cons m l ih =>
    rw [List.filter_cons]
    split
    · simp only [ev, ih]
    · rename_i hm
      simp only [beq_iff_eq] at hm
      rw [ev, ih]
      simp [RM.mon, zero_pow hm]

theorem cB_append (B : ℝ) (a b : NP) : cB B (a ++ b) = cB B a + cB B b := by simp [cB]

theorem cB_neg (B : ℝ) (l : NP) : cB B (neg l) = cB B l := by
  simp [cB, neg, List.map_map, Function.comp_def]

theorem cB_filter_le {B : ℝ} (hB : 0 ≤ B) (p : RM → Bool) (l : NP) : cB B (l.filter p) ≤ cB B l := by
  induction l with
  | nil => simp [cB]
  | cons m l ih =>
    rw [List.filter_cons]
    have h1 : 0 ≤ |(m.c : ℝ)| * B ^ (m.w.length + 2) := by positivity
    have h2 : ∀ l', cB B (m :: l') = |(m.c : ℝ)| * B ^ (m.w.length + 2) + cB B l' := fun l' => by simp [cB]
    split
    · rw [h2, h2]; linarith
    · rw [h2]; linarith

end
end Verif.NP
