import Verif.Lemmas.AngleDeriv
import Verif.Lemmas.CountNear

/-!
# Where the exact matching angle lies
-/
namespace Verif.Solver
open Verif Verif.Prufer Verif.Mesh Verif.Spec
open Real (pi)

variable {C M a b : ℝ} {W : Sec ℝ → ℝ → ℝ} {l : List (Sec ℝ)} {L R : ℝ × ℝ} {D : ℝ → ℝ} {y dy z dz : ℝ → ℝ → ℝ}

theorem ExactCount.c1 (hM : 1 ≤ M) (ok : Ok M W a l b) (hL : 0 < sz L) (h : ExactCount C M W a b l L R D y dy z dz) {E : ℝ} (hE : |E| ≤ M) :
    SolvesMesh W E l (y E) (dy E) ∧ y E a = L.1 ∧ dy E a = L.2 ∧ C1NoDouble a b (y E) (dy E) := by
  obtain ⟨h1, h2, h3⟩ := h.ysol E hE
  exact ⟨h1, h2, h3, ok_c1 hM ok hE h1 ⟨le_rfl, (ok_lt hM ok).le⟩ (by rw [h2, h3]; exact hL)⟩

theorem rescale_zero {sc : ℝ} (hsc : 0 < sc) : rescale 0 sc = 0 := by
  have := rescale_int hsc 0
  simpa using this

theorem rescale_le {sc : ℝ} (hsc : 0 < sc) {α β : ℝ} : rescale α sc ≤ rescale β sc ↔ α ≤ β := (rescale_strictMono hsc).le_iff_le

theorem rescale_lt {sc : ℝ} (hsc : 0 < sc) {α β : ℝ} : rescale α sc < rescale β sc ↔ α < β := (rescale_strictMono hsc).lt_iff_lt

theorem rescale_pi {sc : ℝ} (hsc : 0 < sc) : rescale pi sc = pi := by
  have := rescale_int hsc 1
  simpa using this

/-- At an energy above the potential by `ω²` with `ω (b - a) = (n + 1) π`, the angle has reached `n π`. -/
theorem ExactCount.high (hM : 1 ≤ M) (ok : Ok M W a l b) (hL : 0 < sz L) (h : ExactCount C M W a b l L R D y dy z dz) {E v : ℝ} (hE : |E| ≤ M) (n : ℕ)
    (hv : ∀ s ∈ l, ∀ x ∈ Set.Icc s.min s.max, W s x ≤ v) (hEv : v + ((n + 1) * pi / (b - a)) ^ 2 ≤ E) : n * pi ≤ D E := by
  have hab := ok_lt hM ok
  have hp := Real.pi_pos
  obtain ⟨y1, y2, y3, y4⟩ := h.c1 hM ok hL hE
  obtain ⟨Θl, Θr, l1, r1, ⟨l2, l3⟩, ⟨r2, r3⟩, hx⟩ := h.angles E hE 1 le_rfl (by linarith)
  have hω : 0 < (n + 1) * pi / (b - a) := div_pos (by positivity) (by linarith)
  set ω := (n + 1) * pi / (b - a) with hωd
  have f := angle_fast ok.chn ok.pos hω hab.le y1 y4.simple (ContAngle.rescale hω l1) hv hEv
  have e : ω * (b - a) = ((n + 1 : ℤ) : ℝ) * pi := by
    have : b - a ≠ 0 := by linarith
    rw [hωd]; push_cast; field_simp
  have f0 : 0 ≤ rescale (Θl a) ω := by rw [← rescale_zero hω]; exact (rescale_le hω).mpr l2
  have f1 : ((n + 1 : ℤ) : ℝ) * pi ≤ Θl b := by
    rw [← rescale_le hω, rescale_int hω, ← e]
    linarith
  by_contra hc
  push Not at hc
  have := ((hx b ⟨hab.le, le_rfl⟩).1 n).1 (by push_cast; exact hc)
  push_cast at this f1
  linarith

/-- At an energy above the potential by at most `ω²` with `ω (b - a) = n π > 0`, the angle is at most `(n + 1) π`. -/
theorem ExactCount.low (hM : 1 ≤ M) (ok : Ok M W a l b) (hL : 0 < sz L) (h : ExactCount C M W a b l L R D y dy z dz) {E v : ℝ} (hE : |E| ≤ M) {n : ℕ} (hn : 0 < n)
    (hv : ∀ s ∈ l, ∀ x ∈ Set.Icc s.min s.max, v ≤ W s x) (hEv : E ≤ v + (n * pi / (b - a)) ^ 2) : D E ≤ (n + 1) * pi := by
  have hab := ok_lt hM ok
  have hL0 : 0 < b - a := by linarith
  have hp := Real.pi_pos
  obtain ⟨y1, y2, y3, y4⟩ := h.c1 hM ok hL hE
  obtain ⟨Θl, Θr, l1, r1, ⟨l2, l3⟩, ⟨r2, r3⟩, hx⟩ := h.angles E hE 1 le_rfl (by linarith)
  have f1 : Θl b < ((n + 1 : ℤ) : ℝ) * pi := by
    have hω : 0 < n * pi / (b - a) := div_pos (by positivity) hL0
    set ω := n * pi / (b - a) with hωd
    have := angle_atMost ok.chn ok.pos hω hab.le y1 y4.simple (ContAngle.rescale hω l1) hv hEv
    have f0 : rescale (Θl a) ω < pi := by
      have := (rescale_lt hω).mpr l3
      rwa [rescale_pi hω] at this
    have e : ω * (b - a) = n * pi := by rw [hωd]; field_simp
    rw [← rescale_lt hω, rescale_int hω]
    push_cast
    linarith
  by_contra hc
  push Not at hc
  have := ((hx b ⟨hab.le, le_rfl⟩).1 (n + 1)).2 (by push_cast; exact hc)
  push_cast at this f1
  linarith

/-- Far below the potential the angle is not positive. -/
theorem ExactCount.bottom (hM : 1 ≤ M) (ok : Ok M W a l b) (hL : 0 < sz L) (h : ExactCount C M W a b l L R D y dy z dz) {E v m : ℝ} (hE : |E| ≤ M)
    (hR : 0 < sz R) (hm : 0 < m) (m1 : -(L.1 * L.2) ≤ m * L.1 ^ 2) (m2 : R.1 * R.2 ≤ m * R.1 ^ 2)
    (hv : ∀ s ∈ l, ∀ x ∈ Set.Icc s.min s.max, v ≤ W s x) (hEv : E < v - (m ^ 2 + pi * m / (b - a))) : D E ≤ 0 := by
  have hab := ok_lt hM ok
  have hp := Real.pi_pos
  obtain ⟨y1, y2, y3, y4⟩ := h.c1 hM ok hL hE
  obtain ⟨z1, z2, z3⟩ := h.zsol E hE
  obtain ⟨Θl, Θr, l1, r1, ⟨l2, l3⟩, ⟨r2, r3⟩, hx⟩ := h.angles E hE 1 le_rfl (by linarith)
  have la := (ContAngle.rescale hm l1).angle a ⟨le_rfl, hab.le⟩
  have rb := (ContAngle.rescale hm r1).angle b ⟨hab.le, le_rfl⟩
  rw [y2, y3] at la
  rw [z2, z3] at rb
  have la0 : 0 ≤ rescale (Θl a) m := by rw [← rescale_zero hm]; exact (rescale_le hm).mpr l2
  have la1 : rescale (Θl a) m < pi := by have := (rescale_lt hm).mpr l3; rwa [rescale_pi hm] at this
  have rb0 : 0 < rescale (Θr b) m := by rw [← rescale_zero hm]; exact (rescale_lt hm).mpr r2
  have rb1 : rescale (Θr b) m ≤ pi := by have := (rescale_le hm).mpr r3; rwa [rescale_pi hm] at this
  obtain ⟨ρ, a1, a2⟩ := la.rep
  obtain ⟨σ, c1, c2⟩ := rb.rep
  have hρ : ρ ≠ 0 := by
    rintro rfl
    refine (sz_pos_iff.mp hL) ⟨?_, by simpa using a2⟩
    rw [zero_mul] at a1
    exact (mul_eq_zero.mp a1).resolve_left hm.ne'
  have hσ : σ ≠ 0 := by
    rintro rfl
    refine (sz_pos_iff.mp hR) ⟨?_, by simpa using c2⟩
    rw [zero_mul] at c1
    exact (mul_eq_zero.mp c1).resolve_left hm.ne'
  set α := rescale (Θl a) m with hα
  set β := rescale (Θr b) m with hβ
  have hα3 : α ≤ 3 * pi / 4 := by
    by_contra hc
    push Not at hc
    have s1 : 0 < Real.sin α := Real.sin_pos_of_pos_of_lt_pi (by linarith) la1
    have s2 : Real.sin α + Real.cos α < 0 := by
      have h1 : Real.sin (α + pi / 4) < 0 := by
        have : Real.sin (α + pi / 4) = -Real.sin (α + pi / 4 - pi) := by rw [Real.sin_sub_pi]; ring
        rw [this]
        have := Real.sin_pos_of_pos_of_lt_pi (show 0 < α + pi / 4 - pi by linarith) (by linarith)
        linarith
      rw [Real.sin_add, Real.cos_pi_div_four, Real.sin_pi_div_four, ← add_mul] at h1
      have : 0 < Real.sqrt 2 / 2 := by positivity
      by_contra hc2
      push Not at hc2
      have := mul_nonneg hc2 this.le
      linarith
    have t1 : 0 ≤ ρ ^ 2 * (Real.sin α * (Real.sin α + Real.cos α)) := by
      have : ρ ^ 2 * (Real.sin α * (Real.sin α + Real.cos α)) = m * (m * L.1 ^ 2 + L.1 * L.2) := by
        have : m * (m * L.1 ^ 2 + L.1 * L.2) = (m * L.1) ^ 2 + (m * L.1) * L.2 := by ring
        rw [this, a1, a2]; ring
      rw [this]
      exact mul_nonneg hm.le (by linarith)
    have t2 : ρ ^ 2 * (Real.sin α * (Real.sin α + Real.cos α)) < 0 :=
      mul_neg_of_pos_of_neg (by positivity) (mul_neg_of_pos_of_neg s1 s2)
    linarith
  have hβ1 : pi / 4 ≤ β := by
    by_contra hc
    push Not at hc
    have s1 : 0 < Real.sin β := Real.sin_pos_of_pos_of_lt_pi rb0 (by linarith)
    have s2 : Real.sin β - Real.cos β < 0 := by
      have h1 : Real.sin (β - pi / 4) < 0 := Real.sin_neg_of_neg_of_neg_pi_lt (by linarith) (by linarith)
      rw [Real.sin_sub, Real.cos_pi_div_four, Real.sin_pi_div_four, ← sub_mul] at h1
      have : 0 < Real.sqrt 2 / 2 := by positivity
      by_contra hc2
      push Not at hc2
      have := mul_nonneg hc2 this.le
      linarith
    have t1 : 0 ≤ σ ^ 2 * (Real.sin β * (Real.sin β - Real.cos β)) := by
      have : σ ^ 2 * (Real.sin β * (Real.sin β - Real.cos β)) = m * (m * R.1 ^ 2 - R.1 * R.2) := by
        have : m * (m * R.1 ^ 2 - R.1 * R.2) = (m * R.1) ^ 2 - (m * R.1) * R.2 := by ring
        rw [this, c1, c2]; ring
      rw [this]
      exact mul_nonneg hm.le (by linarith)
    have t2 : σ ^ 2 * (Real.sin β * (Real.sin β - Real.cos β)) < 0 :=
      mul_neg_of_pos_of_neg (by positivity) (mul_neg_of_pos_of_neg s1 s2)
    linarith
  have := angle_slow ok.chn ok.pos hm hab y1 y4.simple (ContAngle.rescale hm l1) hv hEv hα3
  have hle : Θl b ≤ Θr b := (rescale_le hm).mp (this.trans hβ1)
  by_contra hc
  push Not at hc
  have := ((hx b ⟨hab.le, le_rfl⟩).1 0).2 (by push_cast; linarith)
  push_cast at this
  linarith

end Verif.Solver
