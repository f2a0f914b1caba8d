import Verif.Lemmas.MatscsFlat
import Verif.Lemmas.MatscsOde

/-!
# Inexact literals, coefficients and η functions
-/
namespace Verif.NP
open Verif.MFormulas

section
variable {A : Type} [NormedRing A] [NormedAlgebra ℝ A]

theorem word_scaled {v : ℕ → A} {h B : ℝ} (h0 : 0 ≤ h) (hB : 1 ≤ B) (h1 : ‖(1 : A)‖ ≤ B) (hv : ∀ k, ‖v k‖ * h ^ k ≤ B) (l : List ℕ) :
    ‖word v l‖ * h ^ l.sum ≤ B ^ (l.length + 1) := by
  induction l with
  | nil => simpa [word] using h1
  | cons k l ih =>
    rw [word, List.sum_cons, List.length_cons, pow_add, pow_succ _ (l.length + 1)]
    calc ‖v k * word v l‖ * (h ^ k * h ^ l.sum) ≤ ‖v k‖ * ‖word v l‖ * (h ^ k * h ^ l.sum) := mul_le_mul_of_nonneg_right (norm_mul_le _ _) (by positivity)
      _ = (‖v k‖ * h ^ k) * (‖word v l‖ * h ^ l.sum) := by ring
      _ ≤ B * B ^ (l.length + 1) := mul_le_mul (hv k) ih (by positivity) (by linarith)
      _ = B ^ (l.length + 1) * B := mul_comm _ _

theorem word_diff {v w : ℕ → A} {h B τ : ℝ} (h0 : 0 ≤ h) (hB : 1 ≤ B) (h1 : ‖(1 : A)‖ ≤ B) (hv : ∀ k, ‖v k‖ * h ^ k ≤ B) (hw : ∀ k, ‖w k‖ * h ^ k ≤ B)
    (hd : ∀ k, ‖v k - w k‖ * h ^ k ≤ τ) (l : List ℕ) : ‖word v l - word w l‖ * h ^ l.sum ≤ l.length * B ^ (l.length + 1) * τ := by
  have hτ : 0 ≤ τ := le_trans (by positivity) (hd 0)
  induction l with
  | nil => simp [word]
  | cons k l ih =>
    have e : word v (k :: l) - word w (k :: l) = (v k - w k) * word v l + w k * (word v l - word w l) := by simp only [word]; noncomm_ring
    have n1 : ‖word v (k :: l) - word w (k :: l)‖ ≤ ‖v k - w k‖ * ‖word v l‖ + ‖w k‖ * ‖word v l - word w l‖ := by
      rw [e]; exact (norm_add_le _ _).trans (add_le_add (norm_mul_le _ _) (norm_mul_le _ _))
    have hs := word_scaled h0 hB h1 hv l
    rw [List.sum_cons, List.length_cons, pow_add]
    have hB0 : 0 ≤ B := by linarith
    have p1 : B ^ (l.length + 1) ≤ B ^ (l.length + 1 + 1) := pow_le_pow_right₀ hB (by omega)
    calc ‖word v (k :: l) - word w (k :: l)‖ * (h ^ k * h ^ l.sum) ≤ (‖v k - w k‖ * ‖word v l‖ + ‖w k‖ * ‖word v l - word w l‖) * (h ^ k * h ^ l.sum) :=
          mul_le_mul_of_nonneg_right n1 (by positivity)
      _ = (‖v k - w k‖ * h ^ k) * (‖word v l‖ * h ^ l.sum) + (‖w k‖ * h ^ k) * (‖word v l - word w l‖ * h ^ l.sum) := by ring
      _ ≤ τ * B ^ (l.length + 1) + B * (l.length * B ^ (l.length + 1) * τ) :=
          add_le_add (mul_le_mul (hd k) hs (by positivity) hτ) (mul_le_mul (hw k) ih (by positivity) hB0)
      _ ≤ τ * B ^ (l.length + 1 + 1) + B * (l.length * B ^ (l.length + 1) * τ) := by
          have := mul_le_mul_of_nonneg_left p1 hτ
          linarith
      _ = ((l.length + 1 : ℕ) : ℝ) * B ^ (l.length + 1 + 1) * τ := by push_cast; ring

/-- The ingredients of a step: `v` the coefficients used and `w` nearby bounded ones, `e'` the η values used and `e` the exact ones. -/
structure Near (R : ℕ) (B ρ τ σ : ℝ) (q : MTerm → ℝ) (v w e' e : ℕ → A) (h δ : ℝ) : Prop where
  B1 : 1 ≤ B
  one : ‖(1 : A)‖ ≤ B
  h0 : 0 ≤ h
  h1 : h ≤ 1
  d0 : 0 ≤ δ
  d1 : δ ≤ h
  nv : ∀ k, ‖v k‖ * h ^ k ≤ B
  nw : ∀ k, ‖w k‖ * h ^ k ≤ B
  nvw : ∀ k, ‖v k - w k‖ * h ^ k ≤ τ
  ne : ∀ i, ‖e i‖ ≤ B
  ne' : ∀ i < R, ‖e' i‖ ≤ B
  nee : ∀ i < R, ‖e' i - e i‖ ≤ σ
  nρ0 : 0 ≤ ρ

/-- what is needed of a term -/
structure TermOk (R : ℕ) (ρ : ℝ) (q : MTerm → ℝ) (f : FT) : Prop where
  idx : f.i < R
  lit : |q f.t - rnd f.t / 40320| ≤ ρ * |(rnd f.t : ℝ) / 40320|
  unit : f.t.w = [] → q f.t = rnd f.t / 40320
  hom : f.t.w = [] ∨ f.t.w.sum + 1 ≤ f.j + f.p

/-- bound for the sensitivity of a list -/
noncomputable def pB (B : ℝ) (l : List FT) : ℝ := (l.map (fun f => |(rnd f.t : ℝ) / 40320| * ((f.t.w.length + 2) * B ^ (f.t.w.length + 2)))).sum

theorem pB_nonneg {B : ℝ} (hB : 0 ≤ B) (l : List FT) : 0 ≤ pB B l := by
  unfold pB
  apply List.sum_nonneg
  intro x hx
  obtain ⟨m, _, rfl⟩ := List.mem_map.mp hx
  positivity

theorem term_near {R : ℕ} {B ρ τ σ : ℝ} {q : MTerm → ℝ} {v w e' e : ℕ → A} {h δ : ℝ} (N : Near R B ρ τ σ q v w e' e h δ) {f : FT} (ok : TermOk R ρ q f) :
    ‖f.val q v e' h δ - (1 / 40320 : ℝ) • ((f.rm.c : ℝ) • f.rm.mon w e h δ)‖ ≤ |(rnd f.t : ℝ) / 40320| * ((f.t.w.length + 2) * B ^ (f.t.w.length + 2)) * (h * (ρ + τ) + σ) := by
  obtain ⟨i, j, p, t⟩ := f
  obtain ⟨l0, l1, l2, l3⟩ := ok
  dsimp only at l0 l1 l2 l3
  have hB0 : 0 ≤ B := by linarith [N.B1]
  have hτ : 0 ≤ τ := le_trans (mul_nonneg (norm_nonneg _) (pow_nonneg N.h0 _)) (N.nvw 0)
  have hσ : 0 ≤ σ := (norm_nonneg _).trans (N.nee i l0)
  have hρ := N.nρ0
  have hh := N.h0
  show ‖(q t * (δ ^ j * h ^ p)) • (word v t.w * e' i) - (1 / 40320 : ℝ) • (((rnd t : ℤ) : ℝ) • ((δ ^ j * h ^ p) • (word w t.w * e i)))‖ ≤
    |(rnd t : ℝ) / 40320| * ((t.w.length + 2) * B ^ (t.w.length + 2)) * (h * (ρ + τ) + σ)
  obtain ⟨c, hc⟩ : ∃ c, c = (rnd t : ℝ) / 40320 := ⟨_, rfl⟩
  obtain ⟨x, hx⟩ : ∃ x, x = δ ^ j * h ^ p := ⟨_, rfl⟩
  have x0 : 0 ≤ x := by rw [hx]; exact mul_nonneg (pow_nonneg N.d0 _) (pow_nonneg hh _)
  have xle : x ≤ h ^ (j + p) := by
    rw [hx, pow_add]; exact mul_le_mul_of_nonneg_right (pow_le_pow_left₀ N.d0 N.d1 _) (pow_nonneg hh _)
  rw [← hc] at l1 l2 ⊢
  rw [← hx]
  have e0 : (q t * x) • (word v t.w * e' i) - (1 / 40320 : ℝ) • ((rnd t : ℝ) • (x • (word w t.w * e i))) =
      ((q t - c) * x) • (word v t.w * e' i) + (c * x) • ((word v t.w - word w t.w) * e' i) + (c * x) • (word w t.w * (e' i - e i)) := by
    rw [hc]
    simp only [sub_mul, mul_sub, smul_smul, smul_sub, sub_smul]
    module
  have hsv := word_scaled hh N.B1 N.one N.nv t.w
  have hsw := word_scaled hh N.B1 N.one N.nw t.w
  have hsd := word_diff hh N.B1 N.one N.nv N.nw N.nvw t.w
  obtain ⟨len, hlen⟩ : ∃ len : ℕ, len = t.w.length := ⟨_, rfl⟩
  rw [← hlen] at hsv hsw hsd ⊢
  have hx1 : x ≤ h ^ t.w.sum := by
    refine xle.trans (pow_le_pow_of_le_one hh N.h1 ?_)
    rcases l3 with l3 | l3
    · simp [l3]
    · omega
  have hBp : 0 ≤ B ^ (len + 1) := pow_nonneg hB0 _
  -- the three differences
  have t3 : ‖(c * x) • (word w t.w * (e' i - e i))‖ ≤ |c| * (B ^ (len + 1) * σ) := by
    rw [norm_smul, Real.norm_eq_abs, abs_mul, abs_of_nonneg x0, mul_assoc]
    refine mul_le_mul_of_nonneg_left ?_ (abs_nonneg _)
    calc x * ‖word w t.w * (e' i - e i)‖ ≤ h ^ t.w.sum * (‖word w t.w‖ * σ) :=
          mul_le_mul hx1 ((norm_mul_le _ _).trans (mul_le_mul_of_nonneg_left (N.nee i l0) (norm_nonneg _))) (norm_nonneg _) (pow_nonneg hh _)
      _ = (‖word w t.w‖ * h ^ t.w.sum) * σ := by ring
      _ ≤ B ^ (len + 1) * σ := mul_le_mul_of_nonneg_right hsw hσ
  have t12 : ‖((q t - c) * x) • (word v t.w * e' i)‖ ≤ |c| * (B ^ (len + 2) * (h * ρ)) ∧
      ‖(c * x) • ((word v t.w - word w t.w) * e' i)‖ ≤ |c| * (len * B ^ (len + 2) * (h * τ)) := by
    rcases l3 with l3 | l3
    · rw [l2 l3]
      rw [l3]
      simp only [word, sub_self, zero_mul, zero_smul, smul_zero, norm_zero]
      exact ⟨by positivity, by positivity⟩
    · have hx2 : x ≤ h * h ^ t.w.sum := by
        rw [← pow_succ']; exact xle.trans (pow_le_pow_of_le_one hh N.h1 (by omega))
      constructor
      · rw [norm_smul, Real.norm_eq_abs, abs_mul, abs_of_nonneg x0]
        have u1 : x * ‖word v t.w * e' i‖ ≤ h * B ^ (len + 2) := by
          calc x * ‖word v t.w * e' i‖ ≤ (h * h ^ t.w.sum) * (‖word v t.w‖ * B) :=
                mul_le_mul hx2 ((norm_mul_le _ _).trans (mul_le_mul_of_nonneg_left (N.ne' i l0) (norm_nonneg _))) (norm_nonneg _) (by positivity)
            _ = h * ((‖word v t.w‖ * h ^ t.w.sum) * B) := by ring
            _ ≤ h * (B ^ (len + 1) * B) := mul_le_mul_of_nonneg_left (mul_le_mul_of_nonneg_right hsv hB0) hh
            _ = h * B ^ (len + 2) := by ring
        calc |q t - c| * x * ‖word v t.w * e' i‖ = |q t - c| * (x * ‖word v t.w * e' i‖) := by ring
          _ ≤ (ρ * |c|) * (h * B ^ (len + 2)) := mul_le_mul l1 u1 (by positivity) (by positivity)
          _ = |c| * (B ^ (len + 2) * (h * ρ)) := by ring
      · rw [norm_smul, Real.norm_eq_abs, abs_mul, abs_of_nonneg x0, mul_assoc]
        refine mul_le_mul_of_nonneg_left ?_ (abs_nonneg _)
        calc x * ‖(word v t.w - word w t.w) * e' i‖ ≤ (h * h ^ t.w.sum) * (‖word v t.w - word w t.w‖ * B) :=
              mul_le_mul hx2 ((norm_mul_le _ _).trans (mul_le_mul_of_nonneg_left (N.ne' i l0) (norm_nonneg _))) (norm_nonneg _) (by positivity)
          _ = h * ((‖word v t.w - word w t.w‖ * h ^ t.w.sum) * B) := by ring
          _ ≤ h * ((len * B ^ (len + 1) * τ) * B) := mul_le_mul_of_nonneg_left (mul_le_mul_of_nonneg_right hsd hB0) hh
          _ = len * B ^ (len + 2) * (h * τ) := by ring
  rw [e0]
  refine (norm_add_le_of_le (norm_add_le_of_le t12.1 t12.2) t3).trans ?_
  rw [← mul_add, ← mul_add, mul_assoc |c| _ (h * (ρ + τ) + σ)]
  refine mul_le_mul_of_nonneg_left ?_ (abs_nonneg _)
  have p1 : B ^ (len + 1) ≤ B ^ (len + 2) := pow_le_pow_right₀ N.B1 (by omega)
  have p2 : B ^ (len + 1) * σ ≤ B ^ (len + 2) * σ := mul_le_mul_of_nonneg_right p1 hσ
  have hl : (0 : ℝ) ≤ len := Nat.cast_nonneg _
  have z1 : 0 ≤ len * (B ^ (len + 2) * (h * ρ)) := by positivity
  have z2 : 0 ≤ B ^ (len + 2) * (h * ρ) := by positivity
  have z3 : 0 ≤ B ^ (len + 2) * (h * τ) := by positivity
  have z4 : 0 ≤ (len + 1) * (B ^ (len + 2) * σ) := by positivity
  have : (len + 2) * B ^ (len + 2) * (h * (ρ + τ) + σ) = len * (B ^ (len + 2) * (h * ρ)) + 2 * (B ^ (len + 2) * (h * ρ)) + len * B ^ (len + 2) * (h * τ) +
      2 * (B ^ (len + 2) * (h * τ)) + (len + 1) * (B ^ (len + 2) * σ) + B ^ (len + 2) * σ := by ring
  rw [this]
  linarith

theorem evc_near {R : ℕ} {B ρ τ σ : ℝ} {q : MTerm → ℝ} {v w e' e : ℕ → A} {h δ : ℝ} (N : Near R B ρ τ σ q v w e' e h δ) (l : List FT) (ok : ∀ f ∈ l, TermOk R ρ q f) :
    ‖evc q v e' h δ l - (1 / 40320 : ℝ) • ev w e h δ (l.map FT.rm)‖ ≤ pB B l * (h * (ρ + τ) + σ) := by
  induction l with
  | nil => simp [evc, ev, pB]
  | cons f l ih =>
    have e1 : evc q v e' h δ (f :: l) - (1 / 40320 : ℝ) • ev w e h δ ((f :: l).map FT.rm) =
        (f.val q v e' h δ - (1 / 40320 : ℝ) • ((f.rm.c : ℝ) • f.rm.mon w e h δ)) + (evc q v e' h δ l - (1 / 40320 : ℝ) • ev w e h δ (l.map FT.rm)) := by
      rw [evc, List.map_cons, ev, smul_add]; abel
    have e2 : pB B (f :: l) = |(rnd f.t : ℝ) / 40320| * ((f.t.w.length + 2) * B ^ (f.t.w.length + 2)) + pB B l := by simp [pB]
    rw [e1, e2, add_mul]
    exact (norm_add_le _ _).trans (add_le_add (term_near N (ok f (by simp))) (ih (fun f hf => ok f (by simp [hf]))))

end
end Verif.NP
