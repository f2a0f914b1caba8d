import Verif.Lemmas.TurnExact
import Verif.Lemmas.AngleStep

/-!
# The turn of a computed column over a short sector
-/
namespace Verif
open Verif.Prufer
open Real (pi)

variable {V : ℝ → ℝ} {E K a b : ℝ} {z dz : ℝ → ℝ}

/-- cross product of two directions that are near two others -/
theorem cross_near {u v u' v' p q p1 q1 N e : ℝ} (hN : 0 ≤ N) (he0 : 0 ≤ e) (he1 : e ≤ 1) (hu : |u| ≤ N) (hv : |v| ≤ N)
    (hu' : |u'| ≤ 2 * N) (hv' : |v'| ≤ 2 * N) (h1 : |p - u| ≤ e * N) (h2 : |q - v| ≤ e * N) (h3 : |p1 - u'| ≤ e * N) (h4 : |q1 - v'| ≤ e * N) :
    |(p1 * q - p * q1) - (u' * v - u * v')| ≤ 8 * e * N ^ 2 := by
  have e0 : (p1 * q - p * q1) - (u' * v - u * v') = u' * (q - v) + (p1 - u') * v + (p1 - u') * (q - v) - (u * (q1 - v') + (p - u) * v' + (p - u) * (q1 - v')) := by ring
  have eN : 0 ≤ e * N := by positivity
  have m : ∀ {x y A B : ℝ}, |x| ≤ A → |y| ≤ B → 0 ≤ A → |x * y| ≤ A * B := fun hx hy hA => by
    rw [abs_mul]; exact mul_le_mul hx hy (abs_nonneg _) hA
  have a1 := m hu' h2 (by linarith)
  have a2 := m h3 hv eN
  have a3 := m h3 h2 eN
  have a4 := m hu h4 hN
  have a5 := m h1 hv' eN
  have a6 := m h1 h4 eN
  have a7 : e * N * (e * N) ≤ e * N ^ 2 := by
    have := mul_le_mul_of_nonneg_right he1 (show 0 ≤ e * N ^ 2 by positivity)
    calc e * N * (e * N) = e * (e * N ^ 2) := by ring
      _ ≤ _ := by linarith
  rw [e0]
  rw [abs_le] at *
  constructor <;> nlinarith

/-- sign of the turn of the computed columns -/
theorem turn_sign (hK : 1 ≤ K) (hV : ContinuousOn V (Set.Icc a b)) (hq : ∀ x ∈ Set.Icc a b, |V x - E| ≤ K) (hs : SolvesOn V E a b z dz)
    (h : 128 * K * (b - a) ≤ 1) (hab : a < b) {p q p1 q1 e : ℝ} (he0 : 0 ≤ e) (he : 16 * e ≤ b - a)
    (hN : 0 < sz (z a, dz a)) (hu : sz ((p, q) - (z a, dz a)) ≤ e * sz (z a, dz a)) (hu' : sz ((p1, q1) - (z b, dz b)) ≤ e * sz (z a, dz a)) :
    (p * p1 ≤ 0 → 0 < p1 * q - p * q1) ∧ (4096 * K ^ 2 * e ≤ (b - a) * E - (∫ x in a..b, V x) → 0 ≤ p1 * q - p * q1) := by
  set N := sz (z a, dz a) with hNdef
  have hKh : K * (b - a) ≤ 1 / 128 := by linarith
  have hab1 : b - a ≤ 1 := by nlinarith
  have he1 : e ≤ 1 := by linarith
  have mb : b ∈ Set.Icc a b := ⟨hab.le, le_rfl⟩
  have sb := short_bound hK hq hs (by linarith) mb
  have f1 := short_first hK hq hs (by linarith) mb
  rw [← hNdef] at sb f1
  have u1 : |p - z a| ≤ e * N := (le_sz1 ((p, q) - (z a, dz a))).trans hu
  have u2 : |q - dz a| ≤ e * N := (le_sz2 ((p, q) - (z a, dz a))).trans hu
  have u3 : |p1 - z b| ≤ e * N := (le_sz1 ((p1, q1) - (z b, dz b))).trans hu'
  have u4 : |q1 - dz b| ≤ e * N := (le_sz2 ((p1, q1) - (z b, dz b))).trans hu'
  have z1 : |z a| ≤ N := le_sz1 (z a, dz a)
  have z2 : |dz a| ≤ N := le_sz2 (z a, dz a)
  have cn := cross_near hN.le he0 he1 z1 z2 ((le_sz1 (z b, dz b)).trans sb) ((le_sz2 (z b, dz b)).trans sb) u1 u2 u3 u4
  rw [abs_le] at cn
  rcases le_total (16 * K * |z a|) |dz a| with hst | hfl
  · have st := turn_steep hK hq hs (by linarith) hab.le hst
    have hNe : N = |dz a| := max_eq_right (by
      show |z a| ≤ |dz a|
      have := abs_nonneg (z a)
      nlinarith)
    have hN2 : dz a ^ 2 = N ^ 2 := by rw [hNe, sq_abs]
    rw [hN2] at st
    have : 8 * e * N ^ 2 ≤ 1 / 2 * ((b - a) * N ^ 2) := by
      have := mul_le_mul_of_nonneg_right he (show 0 ≤ N ^ 2 by positivity)
      linarith
    have hp : 0 < (b - a) * N ^ 2 := mul_pos (by linarith) (by positivity)
    have : 0 < p1 * q - p * q1 := by linarith [cn.1]
    exact ⟨fun _ => this, fun _ => this.le⟩
  · have hza : z a ≠ 0 := by
      intro h0
      rw [h0, abs_zero, mul_zero] at hfl
      have : N ≤ 0 := sz_le (by show |z a| ≤ 0; rw [h0, abs_zero]) hfl
      linarith
    obtain ⟨k1, k2⟩ := turn_flat hK hV hq hs h hab.le hfl hza
    have hA := abs_pos.mpr hza
    set A := |z a| with hAdef
    have hNA : N ≤ 16 * K * A := sz_le (by show |z a| ≤ _; nlinarith) hfl
    have hA2 : z a ^ 2 = A ^ 2 := by rw [hAdef, sq_abs]
    rw [hA2] at k1
    have eA : e * N ≤ A / 128 := by
      have h1 : e * N ≤ e * (16 * K * A) := mul_le_mul_of_nonneg_left hNA he0
      have h2 : K * A * (16 * e) ≤ K * A * (b - a) := mul_le_mul_of_nonneg_left he (by positivity)
      have h3 := mul_le_mul_of_nonneg_right hKh hA.le
      linarith
    have hb : |z b| ≤ 5 / 4 * A := by
      have h1 : 2 * N * (b - a) ≤ A / 4 := by
        have h2 : 2 * N * (b - a) ≤ 2 * (16 * K * A) * (b - a) := mul_le_mul_of_nonneg_right (by linarith) (by linarith)
        have h3 := mul_le_mul_of_nonneg_right hKh hA.le
        linarith
      have := abs_sub_abs_le_abs_sub (z b) (z a)
      linarith [f1.1]
    constructor
    · intro hpp
      exfalso
      have m : ∀ {x y A B : ℝ}, |x| ≤ A → |y| ≤ B → 0 ≤ A → |x * y| ≤ A * B := fun hx hy hA => by
        rw [abs_mul]; exact mul_le_mul hx hy (abs_nonneg _) hA
      have b1 := m (u1.trans eA) hb (by positivity)
      have b2 := m (hAdef.le : |z a| ≤ A) (u3.trans eA) hA.le
      have b3 := m (u1.trans eA) (u3.trans eA) (by positivity)
      have e0 : p * p1 = z a * z b + (p - z a) * z b + z a * (p1 - z b) + (p - z a) * (p1 - z b) := by ring
      rw [abs_le] at b1 b2 b3
      have hA3 : 0 < A ^ 2 := by positivity
      nlinarith [b1.1, b2.1, b3.1]
    · intro hB
      set B := (b - a) * E - ∫ x in a..b, V x
      have hB0 : 0 ≤ B := le_trans (by positivity) hB
      have g1 : 3 / 4 * A ^ 2 * B ≤ z a * z b * B := mul_le_mul_of_nonneg_right k1 hB0
      have g2 : N ^ 2 ≤ 256 * K ^ 2 * A ^ 2 := by
        have := pow_le_pow_left₀ hN.le hNA 2
        calc _ ≤ _ := this
          _ = _ := by ring
      have g3 : 8 * e * N ^ 2 ≤ 8 * e * (256 * K ^ 2 * A ^ 2) := mul_le_mul_of_nonneg_left g2 (by positivity)
      have g4 : A ^ 2 * (4096 * K ^ 2 * e) ≤ A ^ 2 * B := mul_le_mul_of_nonneg_left hB (by positivity)
      have g5 : 0 ≤ A ^ 2 * B := by positivity
      linarith [cn.1]

/-- size of the turn between two near directions -/
theorem rot_near {sc S u v u' v' m c : ℝ} (hsc : 1 ≤ sc) (hS : sc ^ 2 ≤ S) (hm : 0 < m) (hu : |u| ≤ m) (hv : |v| ≤ m) (hmm : |u| = m ∨ |v| = m)
    (h1 : |u' - u| ≤ c * m) (h2 : |v' - v| ≤ c * m) (hc : 4 * (S * c) ≤ 1) :
    0 < sc * u * (sc * u') + v * v' ∧ |rot (sc * u) v (sc * u') v'| ≤ 4 * (S * c) := by
  have hS1 : 1 ≤ S := by nlinarith
  have hscS : sc ≤ S := by nlinarith
  have hc0 : 0 ≤ c := by
    have := (abs_nonneg _).trans h1
    by_contra hn; push Not at hn; nlinarith
  have mm : ∀ {x y A B : ℝ}, |x| ≤ A → |y| ≤ B → 0 ≤ A → |x * y| ≤ A * B := fun hx hy hA => by
    rw [abs_mul]; exact mul_le_mul hx hy (abs_nonneg _) hA
  have b1 := mm hu h1 hm.le
  have b2 := mm hv h2 hm.le
  have b3 := mm hv h1 hm.le
  have b4 := mm hu h2 hm.le
  rw [abs_le] at b1 b2 b3 b4
  have big : m ^ 2 ≤ sc ^ 2 * u ^ 2 + v ^ 2 := by
    have hsq : 1 ≤ sc ^ 2 := by nlinarith
    rcases hmm with h | h
    · have : u ^ 2 = m ^ 2 := by rw [← h, sq_abs]
      rw [this]; nlinarith [sq_nonneg v, sq_nonneg m]
    · have : v ^ 2 = m ^ 2 := by rw [← h, sq_abs]
      rw [this]; nlinarith [sq_nonneg u, sq_nonneg sc, mul_nonneg (sq_nonneg sc) (sq_nonneg u)]
  have hcm : 0 ≤ m * (c * m) := by positivity
  have s0 : 0 ≤ sc ^ 2 := by positivity
  have l1 : -(S * (m * (c * m))) ≤ sc ^ 2 * (u * (u' - u)) := by
    have i1 := mul_le_mul_of_nonneg_left b1.1 s0
    have i2 := mul_le_mul_of_nonneg_right hS hcm
    linarith
  have l2 : -(S * (m * (c * m))) ≤ v * (v' - v) := by
    have i2 := mul_le_mul_of_nonneg_right hS1 hcm
    linarith [b2.1]
  have e1 : sc * u * (sc * u') + v * v' = sc ^ 2 * u ^ 2 + v ^ 2 + sc ^ 2 * (u * (u' - u)) + v * (v' - v) := by ring
  have hc2 : 2 * (S * (m * (c * m))) ≤ 1 / 2 * m ^ 2 := by
    have := mul_le_mul_of_nonneg_right hc (show 0 ≤ m ^ 2 by positivity)
    linarith
  have dot : 1 / 2 * m ^ 2 ≤ sc * u * (sc * u') + v * v' := by rw [e1]; linarith
  have hm2 : 0 < m ^ 2 := by positivity
  have dpos : 0 < sc * u * (sc * u') + v * v' := by linarith
  refine ⟨dpos, rot_abs dpos ?_⟩
  have e2 : sc * u' * v - sc * u * v' = sc * (v * (u' - u) - u * (v' - v)) := by ring
  have l3 : |v * (u' - u) - u * (v' - v)| ≤ 2 * (m * (c * m)) := by
    rw [abs_le]; constructor <;> linarith [b3.1, b3.2, b4.1, b4.2]
  rw [e2, abs_mul, abs_of_pos (by linarith : (0 : ℝ) < sc)]
  have k1 : sc * |v * (u' - u) - u * (v' - v)| ≤ S * (2 * (m * (c * m))) := mul_le_mul hscS l3 (abs_nonneg _) (by linarith)
  have k2 : 4 * (S * c) * (1 / 2 * m ^ 2) ≤ 4 * (S * c) * (sc * u * (sc * u') + v * v') := mul_le_mul_of_nonneg_left dot (by positivity)
  linarith

/-- the turn is antisymmetric -/
theorem rot_neg (u v u' v' : ℝ) : rot u' v' u v = -rot u v u' v' := by
  unfold rot
  rw [← Real.arctan_neg]
  congr 1
  rw [show u * v' - u' * v = -(u' * v - u * v') by ring, show u' * u + v' * v = u * u' + v * v' by ring, neg_div]

theorem sz_eq (u : ℝ × ℝ) : |u.1| = sz u ∨ |u.2| = sz u := by
  unfold sz
  rcases le_total |u.1| |u.2| with h | h
  · right; rw [max_eq_right h]
  · left; rw [max_eq_left h]

end Verif
