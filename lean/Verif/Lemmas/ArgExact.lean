import Verif.Lemmas.ArgMatrix
import Verif.Spec.Ode
import Mathlib.Data.Matrix.ColumnRowPartitioned

/-!
# Decoupled blocks in piecewise constant potentials
-/
namespace Verif.Matscs
open Verif.Prufer Verif.Mesh Verif.Spec
open Real (pi sin cos)

/-- The solution through given values. -/
noncomputable def solY (q p y0 dy0 x : ℝ) : ℝ := Eta.eta 0 ((x - p) * (x - p) * q) * y0 + (x - p) * Eta.eta 1 ((x - p) * (x - p) * q) * dy0
noncomputable def solD (q p y0 dy0 x : ℝ) : ℝ := q * (x - p) * Eta.eta 1 ((x - p) * (x - p) * q) * y0 + Eta.eta 0 ((x - p) * (x - p) * q) * dy0

theorem eta0_deriv (q p x : ℝ) : HasDerivAt (fun x => Eta.eta 0 ((x - p) * (x - p) * q)) (q * (x - p) * Eta.eta 1 ((x - p) * (x - p) * q)) x := by
  have hZ : HasDerivAt (fun x => (x - p) * (x - p) * q) (2 * (x - p) * q) x :=
    ((((hasDerivAt_id x).sub_const p).mul ((hasDerivAt_id x).sub_const p)).mul_const q).congr_deriv (by simp only [id_eq]; ring)
  exact ((Eta.hasDerivAt_eta 0 _).comp x hZ).congr_deriv (by ring)

theorem eta1_deriv (q p x : ℝ) : HasDerivAt (fun x => (x - p) * Eta.eta 1 ((x - p) * (x - p) * q)) (Eta.eta 0 ((x - p) * (x - p) * q)) x := by
  have hZ : HasDerivAt (fun x => (x - p) * (x - p) * q) (2 * (x - p) * q) x :=
    ((((hasDerivAt_id x).sub_const p).mul ((hasDerivAt_id x).sub_const p)).mul_const q).congr_deriv (by simp only [id_eq]; ring)
  refine ((((hasDerivAt_id x).sub_const p).mul ((Eta.hasDerivAt_eta 1 _).comp x hZ))).congr_deriv ?_
  have := Eta.eta_rec 0 ((x - p) * (x - p) * q)
  simp only [Function.comp, id_eq]
  norm_num at this
  linear_combination -this

theorem sol_const (q p y0 dy0 : ℝ) : ConstSol q (solY q p y0 dy0) (solD q p y0 dy0) where
  d1 x := (((eta0_deriv q p x).mul_const y0).add ((eta1_deriv q p x).mul_const dy0)).congr_deriv (by unfold solD; ring)
  d2 x := by
    have := ((((eta1_deriv q p x).const_mul q).mul_const y0).add ((eta0_deriv q p x).mul_const dy0))
    have e : solD q p y0 dy0 = ((fun x => q * ((x - p) * Eta.eta 1 ((x - p) * (x - p) * q)) * y0) + fun x => Eta.eta 0 ((x - p) * (x - p) * q) * dy0) := by
      funext x; simp only [solD, Pi.add_apply]; ring
    rw [e]
    exact this.congr_deriv (by unfold solY; ring)

/-- On a sector with a constant potential every solution has the closed form. -/
theorem sol_closed {v E a b : ℝ} {y dy : ℝ → ℝ} (h : SolvesOn (fun _ => v) E a b y dy) {p x : ℝ} (hp : p ∈ Set.Icc a b) (hx : x ∈ Set.Icc a b) :
    y x = solY (v - E) p (y p) (dy p) x ∧ dy x = solD (v - E) p (y p) (dy p) x := by
  obtain ⟨q, hq⟩ : ∃ q, q = v - E := ⟨_, rfl⟩
  have k1 : ∀ x ∈ Set.Icc a b, HasDerivWithinAt (fun x => Eta.eta 0 ((x - p) * (x - p) * q) * y x - (x - p) * Eta.eta 1 ((x - p) * (x - p) * q) * dy x) 0 (Set.Icc a b) x := fun x hx =>
    (((eta0_deriv q p x).hasDerivWithinAt.mul (h.d1 x hx)).sub ((eta1_deriv q p x).hasDerivWithinAt.mul (h.d2 x hx))).congr_deriv (by rw [hq]; ring)
  have k2 : ∀ x ∈ Set.Icc a b, HasDerivWithinAt (fun x => Eta.eta 0 ((x - p) * (x - p) * q) * dy x - q * ((x - p) * Eta.eta 1 ((x - p) * (x - p) * q)) * y x) 0 (Set.Icc a b) x := fun x hx =>
    (((eta0_deriv q p x).hasDerivWithinAt.mul (h.d2 x hx)).sub (((eta1_deriv q p x).hasDerivWithinAt.const_mul q).mul (h.d1 x hx))).congr_deriv (by rw [hq]; ring)
  have con : ∀ f : ℝ → ℝ, (∀ x ∈ Set.Icc a b, HasDerivWithinAt f 0 (Set.Icc a b) x) → ∀ x ∈ Set.Icc a b, f x = f p := by
    intro f hf x hx
    rcases eq_or_lt_of_le (hx.1.trans hx.2) with hab | hab
    · have e1 : x = p := le_antisymm (by linarith [hx.2, hp.1]) (by linarith [hx.1, hp.2])
      rw [e1]
    · have c := constant_of_derivWithin_zero (fun x hx => (hf x hx).differentiableWithinAt)
        (fun x hx => (hf x ⟨hx.1, hx.2.le⟩).derivWithin (uniqueDiffOn_Icc hab x ⟨hx.1, hx.2.le⟩))
      rw [c x hx, c p hp]
  have c1 := con _ k1 x hx
  have c2 := con _ k2 x hx
  have z : Eta.eta 0 0 = 1 := by simp [Eta.eta_zero_right, Eta.oddFact]
  simp only [sub_self, zero_mul, z, one_mul, mul_zero, sub_zero] at c1 c2
  have w := Eta.eta_wronskian ((x - p) * (x - p) * q)
  rw [← hq]
  unfold solY solD
  generalize Eta.eta 0 ((x - p) * (x - p) * q) = A at *
  generalize Eta.eta 1 ((x - p) * (x - p) * q) = B at *
  constructor
  · linear_combination A * c1 + (x - p) * B * c2 - y x * w
  · linear_combination A * c2 + q * (x - p) * B * c1 - dy x * w

/-- The exact transfer matrix over a length `δ` of a decoupled system with constant potentials: `q j` is the potential minus the energy. -/
noncomputable def diagT {n : ℕ} (q : Fin n → ℝ) (δ : ℝ) : Matrix (Fin n ⊕ Fin n) (Fin n ⊕ Fin n) ℝ :=
  Matrix.fromBlocks (Matrix.diagonal fun j => Eta.eta 0 (δ * δ * q j)) (Matrix.diagonal fun j => δ * Eta.eta 1 (δ * δ * q j))
    (Matrix.diagonal fun j => q j * δ * Eta.eta 1 (δ * δ * q j)) (Matrix.diagonal fun j => Eta.eta 0 (δ * δ * q j))

theorem diagT_neg_mul {n : ℕ} (q : Fin n → ℝ) (δ : ℝ) : diagT q (-δ) * diagT q δ = 1 := by
  unfold diagT
  rw [Matrix.fromBlocks_multiply, ← Matrix.fromBlocks_one]
  simp only [Matrix.diagonal_mul_diagonal, Matrix.diagonal_add, neg_mul_neg]
  have w := fun j => Eta.eta_wronskian (δ * δ * q j)
  congr 1
  · rw [← Matrix.diagonal_one]; congr 1; funext j; linear_combination w j
  · rw [← Matrix.diagonal_zero]; congr 1; funext j; ring
  · rw [← Matrix.diagonal_zero]; congr 1; funext j; ring
  · rw [← Matrix.diagonal_one]; congr 1; funext j; linear_combination w j

theorem diagT_inv {n : ℕ} (q : Fin n → ℝ) (δ : ℝ) : (diagT q δ)⁻¹ = diagT q (-δ) := Matrix.inv_eq_left_inv (diagT_neg_mul q δ)

/-- the rows of a diagonal block -/
theorem isDiag_iff {n : ℕ} {u : Yn n n ℝ} {a b : Fin n → ℝ} : u.IsDiag a b ↔ u.y = Matrix.fromRows (Matrix.diagonal a) (Matrix.diagonal b) := by
  constructor
  · rintro ⟨h1, h2⟩
    ext i j
    rcases i with i | i
    · have := congrFun (congrFun h1 i) j
      simpa [Yn.val] using this
    · have := congrFun (congrFun h2 i) j
      simpa [Yn.der] using this
  · intro h
    constructor
    · ext i j; simp [Yn.val, h]
    · ext i j; simp [Yn.der, h]

theorem diagT_apply {n : ℕ} (q : Fin n → ℝ) (δ : ℝ) (a b : Fin n → ℝ) :
    diagT q δ * Matrix.fromRows (Matrix.diagonal a) (Matrix.diagonal b) = Matrix.fromRows
      (Matrix.diagonal fun j => Eta.eta 0 (δ * δ * q j) * a j + δ * Eta.eta 1 (δ * δ * q j) * b j)
      (Matrix.diagonal fun j => q j * δ * Eta.eta 1 (δ * δ * q j) * a j + Eta.eta 0 (δ * δ * q j) * b j) := by
  unfold diagT
  rw [Matrix.fromBlocks_mul_fromRows]
  simp only [Matrix.diagonal_mul_diagonal, Matrix.diagonal_add]

theorem rev_diag {n : ℕ} {u : Yn n n ℝ} {a b : Fin n → ℝ} (h : u.IsDiag a b) : u.reverse.IsDiag a (fun j => -b j) := by
  refine ⟨by rw [Yn.val_rev]; exact h.1, ?_⟩
  rw [Yn.der_rev, h.2, ← Matrix.diagonal_neg]

/-- One step in a sector with exact transfer matrices. -/
theorem diag_step {n : ℕ} {s : CSec n ℝ} {E : ℝ} {useH : Bool} {q : Fin n → ℝ} (hh : 0 ≤ s.h)
    (hT : ∀ δ, 0 ≤ δ → δ ≤ s.h → (s.tr E δ useH).t = diagT q δ) {u : Yn n n ℝ} {a b : Fin n → ℝ} (h : u.IsDiag a b) (δ : ℝ) :
    ((s.toG n).propagateDelta Yn.reverse E useH u δ).IsDiag
      (fun j => Eta.eta 0 (clip s.h δ * clip s.h δ * q j) * a j + clip s.h δ * Eta.eta 1 (clip s.h δ * clip s.h δ * q j) * b j)
      (fun j => q j * clip s.h δ * Eta.eta 1 (clip s.h δ * clip s.h δ * q j) * a j + Eta.eta 0 (clip s.h δ * clip s.h δ * q j) * b j) := by
  have mul : ∀ (e : ℝ) (a b : Fin n → ℝ) (u : Yn n n ℝ), 0 ≤ e → e ≤ s.h → u.IsDiag a b → ((s.tr E e useH).mul u).IsDiag
      (fun j => Eta.eta 0 (e * e * q j) * a j + e * Eta.eta 1 (e * e * q j) * b j)
      (fun j => q j * e * Eta.eta 1 (e * e * q j) * a j + Eta.eta 0 (e * e * q j) * b j) := by
    intro e a b u h1 h2 hu
    rw [isDiag_iff] at hu ⊢
    simp only [Tn.mul, hT e h1 h2, hu, diagT_apply]
  have div : ∀ (e : ℝ) (a b : Fin n → ℝ) (u : Yn n n ℝ), 0 ≤ e → e ≤ s.h → u.IsDiag a b → ((s.tr E e useH).div u).IsDiag
      (fun j => Eta.eta 0 (e * e * q j) * a j - e * Eta.eta 1 (e * e * q j) * b j)
      (fun j => -(q j * e * Eta.eta 1 (e * e * q j) * a j) + Eta.eta 0 (e * e * q j) * b j) := by
    intro e a b u h1 h2 hu
    rw [isDiag_iff] at hu ⊢
    simp only [Tn.div, hT e h1 h2, hu, diagT_inv, diagT_apply]
    congr 2 <;> funext j <;> rw [neg_mul_neg] <;> ring
  obtain ⟨m, hm⟩ : ∃ m, m = min |δ| s.h := ⟨_, rfl⟩
  have m0 : 0 ≤ m := by rw [hm]; exact le_min (abs_nonneg δ) hh
  have m1 : m ≤ s.h := by rw [hm]; exact min_le_right _ _
  have hclip : clip s.h δ = (if 0 ≤ δ then 1 else -1) * m := by
    unfold clip
    by_cases h0 : 0 ≤ δ
    · rw [abs_of_nonneg h0] at hm
      rw [if_pos h0, one_mul, hm]
      by_cases h1 : s.h < δ
      · rw [if_pos h1, min_eq_right h1.le]
      · rw [if_neg h1, if_neg (by linarith), min_eq_left (not_lt.mp h1)]
    · have h0' := not_le.mp h0
      rw [abs_of_neg h0'] at hm
      rw [if_neg h0, if_neg (by linarith), hm]
      by_cases h1 : δ < -s.h
      · rw [if_pos h1, min_eq_right (by linarith)]; ring
      · rw [if_neg h1, min_eq_left (by linarith)]; ring
  unfold GSec.propagateDelta
  simp only [ccmp_le, ccmp_lt, CSec.toG]
  have hmin : ∀ t : ℝ, 0 ≤ t → t = |δ| → (if decide (s.h < t) = true then s.h else t) = m := by
    intro t _ ht
    rw [hm, ← ht]
    by_cases h1 : s.h < t
    · simp [h1, h1.le]
    · simp [h1, not_lt.mp h1]
  rcases eq_or_ne δ 0 with hz | hz
  · have hm0 : m = 0 := by rw [hm, hz]; simp [hh]
    have hc0 : clip s.h δ = 0 := by rw [hclip, hm0, mul_zero]
    by_cases hb : s.dir = .backward
    · have k := rev_diag (mul m _ _ _ m0 m1 (rev_diag h))
      have e1 := hmin 0 le_rfl (by rw [hz]; simp)
      simp only [hb, if_true, hz, neg_zero, le_refl, decide_true, e1] at k ⊢
      rw [hz] at hc0
      rw [hc0]
      rw [hm0] at k ⊢
      convert k using 2 <;> simp
    · have k := mul m _ _ _ m0 m1 h
      have e1 := hmin 0 le_rfl (by rw [hz]; simp)
      simp only [hb, if_false, hz, le_refl, decide_true, if_true, e1] at k ⊢
      rw [hz] at hc0
      rw [hc0]
      rw [hm0] at k ⊢
      exact k
  rcases lt_or_gt_of_ne hz with hneg | hpos
  · have hn : ¬ 0 ≤ δ := not_le.mpr hneg
    have hn' : 0 ≤ -δ := by linarith
    rw [if_neg hn] at hclip
    have hab := hmin (-δ) hn' (abs_of_neg hneg).symm
    by_cases hb : s.dir = .backward
    · have k := rev_diag (mul m _ _ _ m0 m1 (rev_diag h))
      simp only [hb, if_true, hn', decide_true, hab]
      rw [hclip]
      convert k using 2 <;> ring_nf
    · have k := div m _ _ _ m0 m1 h
      simp only [hb, if_false, hn, decide_false, Bool.false_eq_true, hab]
      rw [hclip]
      convert k using 2 <;> ring_nf
  · have hn : 0 ≤ δ := hpos.le
    have hn' : ¬ 0 ≤ -δ := by linarith
    rw [if_pos hn] at hclip
    have hab := hmin δ hn (abs_of_pos hpos).symm
    by_cases hb : s.dir = .backward
    · have k := rev_diag (div m _ _ _ m0 m1 (rev_diag h))
      simp only [hb, if_true, hn', decide_false, Bool.false_eq_true, if_false, neg_neg, hab]
      rw [hclip]
      convert k using 2 <;> ring_nf
    · have k := mul m _ _ _ m0 m1 h
      simp only [hb, if_false, hn, decide_true, if_true, hab]
      rw [hclip]
      convert k using 2 <;> ring_nf

end Verif.Matscs
