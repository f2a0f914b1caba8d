import Verif.Props.LiouvillePieces
import Verif.Props.LiouvilleForm

/-!
# C133: the polynomial for `p·w` stored in a piece

The transformed potential is computed from a polynomial in `x` that stands for `p·w`. On a piece on which `p` and `w` vary little, all stored
polynomials are close to the coefficient functions.
-/
namespace Verif.Liouville
open Verif.Poly

/-- How much the interpolation with `n + 1` Legendre polynomials from `k` points amplifies a disturbance. -/
def gain (n k : ℕ) : ℚ := ∑ i ∈ Finset.range (n + 1), 2 ^ i * ∑ j ∈ Finset.range k, |Legendre.weight k i j|

theorem gain_7 : gain 7 8 ≤ 64 := by decide +kernel
theorem gain_8 : gain 8 10 ≤ 81 := by decide +kernel
theorem gain_10 : gain 10 12 ≤ 121 := by decide +kernel

/-- The stored polynomial (of degree `n`, `n ≤ 14`) of a function that varies by at most `ε` around `v` stays near `v`. -/
theorem polynomial_near (n : ℕ) (hn : n ≤ 14) (f : ℝ → ℝ) (a b v ε : ℝ) (hab : a < b) (hf : ∀ x, a ≤ x → x ≤ b → |f x - v| ≤ ε)
    (t : ℝ) (t0 : 0 ≤ t) (t1 : t ≤ 1) : |eval (⟨Legendre.asPolynomial (n + 1) f a b⟩ : Poly ℝ n) t - v| ≤
      gain n (Legendre.kOf (n + 1)) * ε + 1 / 10 ^ 12 * |v| := by
  obtain ⟨k, hk⟩ : ∃ k, k = Legendre.kOf (n + 1) := ⟨_, rfl⟩
  rw [← hk]
  have hg : (gain n k : ℝ) = ∑ i ∈ Finset.range (n + 1), 2 ^ i * ∑ j ∈ Finset.range k, |(Legendre.weight k i j : ℝ)| := by
    simp [gain]
  rw [hg]
  have h0 : b - a ≠ 0 := by linarith
  have hev : ∀ g : ℝ → ℝ, eval (⟨Legendre.asPolynomial (n + 1) g a b⟩ : Poly ℝ n) t =
      ∑ i ∈ Finset.range (n + 1), (2 ^ i * ∑ j ∈ Finset.range k, (Legendre.weight k i j : ℝ) * g (Legendre.samplePoint k a b j)) * shiftedP i t := by
    intro g
    rw [C43_eval, value]
    rcases Legendre.C42_asPolynomial (n := n + 1) (by omega) g a b t with h | h
    · rw [h, legendreSeries]
      refine Finset.sum_congr rfl (fun i _ => ?_)
      rw [mul_div_cancel_left₀ _ h0, Legendre.coeff_scaled (n := n + 1) (by omega) g hab.ne, hk]
    · exact absurd h hab.ne
  have hc : |eval (⟨Legendre.asPolynomial (n + 1) (fun _ => v) a b⟩ : Poly ℝ n) t - v| ≤ 1 / 10 ^ 12 * |v| := by
    have h := Legendre.C42_reconstruction (n := n + 1) (by omega) (by omega) hab.ne (fun _ => v) (fun m => if m = 0 then v else 0)
      (by intro s; rw [Finset.sum_eq_single 0 (fun m _ hm => by simp [hm]) (by simp)]; simp) t0 t1
    rcases Legendre.C42_asPolynomial (n := n + 1) (by omega) (fun _ => v) a b t with h' | h'
    · rw [C43_eval, value, h']
      refine h.trans ?_
      rw [Finset.sum_eq_single 0 (fun m _ hm => by simp [hm]) (by simp)]
      simp only [if_true]
      have h15 : ((n + 1 : ℕ) : ℝ) ≤ 15 := by exact_mod_cast (by omega : n + 1 ≤ 15)
      have := abs_nonneg v
      nlinarith
    · exact absurd h' hab.ne
  have hd : |eval (⟨Legendre.asPolynomial (n + 1) f a b⟩ : Poly ℝ n) t - eval (⟨Legendre.asPolynomial (n + 1) (fun _ => v) a b⟩ : Poly ℝ n) t| ≤
      (∑ i ∈ Finset.range (n + 1), 2 ^ i * ∑ j ∈ Finset.range k, |(Legendre.weight k i j : ℝ)|) * ε := by
    rw [hev f, hev (fun _ => v), ← Finset.sum_sub_distrib, Finset.sum_mul]
    refine (Finset.abs_sum_le_sum_abs _ _).trans (Finset.sum_le_sum (fun i hi => ?_))
    rw [← sub_mul, ← mul_sub, ← Finset.sum_sub_distrib, abs_mul, abs_mul, abs_of_nonneg (by positivity : (0:ℝ) ≤ 2 ^ i)]
    have hP := (Legendre.C41_table (by have := Finset.mem_range.mp hi; omega : i < 16) t).2.2.2 t0 t1
    have hS : |∑ j ∈ Finset.range k, ((Legendre.weight k i j : ℝ) * f (Legendre.samplePoint k a b j) - (Legendre.weight k i j : ℝ) * v)| ≤
        (∑ j ∈ Finset.range k, |(Legendre.weight k i j : ℝ)|) * ε := by
      rw [Finset.sum_mul]
      refine (Finset.abs_sum_le_sum_abs _ _).trans (Finset.sum_le_sum (fun j hj => ?_))
      rw [← mul_sub, abs_mul]
      have kk : Legendre.kOf (n + 1) = (n + 1) + (n + 1) % 2 := rfl
      have hn := Legendre.node_inside (k := k) (by omega) (by omega) (by omega) (Finset.mem_range.mp hj)
      have h1 : (-1 : ℝ) < Legendre.node k j := by exact_mod_cast hn.1
      have h2 : (Legendre.node k j : ℝ) < 1 := by exact_mod_cast hn.2
      have e : (Legendre.samplePoint k a b j : ℝ) = (a + b) / 2 + Legendre.node k j * ((b - a) / 2) := by
        simp [Legendre.samplePoint, Legendre.halfWidth]
      refine mul_le_mul_of_nonneg_left (hf _ ?_ ?_) (abs_nonneg _) <;> rw [e] <;> nlinarith
    calc 2 ^ i * |∑ j ∈ Finset.range k, ((Legendre.weight k i j : ℝ) * f (Legendre.samplePoint k a b j) - (Legendre.weight k i j : ℝ) * v)| * |shiftedP i t|
        ≤ 2 ^ i * ((∑ j ∈ Finset.range k, |(Legendre.weight k i j : ℝ)|) * ε) * 1 :=
          mul_le_mul (mul_le_mul_of_nonneg_left hS (by positivity)) hP (abs_nonneg _)
            (mul_nonneg (by positivity) ((abs_nonneg _).trans hS))
      _ = _ := by ring
  calc _ ≤ _ := abs_sub_le _ (eval (⟨Legendre.asPolynomial (n + 1) (fun _ => v) a b⟩ : Poly ℝ n) t) _
    _ ≤ _ := add_le_add hd hc

/-- The inverse map returns a point of `[0, 1]`, whatever it inverts. -/
theorem x2rImpl_inside (r2x : Poly ℝ DEGREE) (x : ℝ) : 0 ≤ x2rImpl r2x x ∧ x2rImpl r2x x ≤ 1 := by
  have key : ∀ (n : ℕ) (low high v : ℝ), 0 ≤ low → low ≤ high → high ≤ 1 → x2rLoop (eval r2x) x n low high = .ok v → 0 ≤ v ∧ v ≤ 1 := by
    intro n
    induction n with
    | zero =>
      intro low high v h0 h1 h2 h
      rw [x2rLoop] at h
      split at h
      · simp at h
      · simp only [Outcome.ok.injEq, ccmp_lit] at h
        push_cast at h
        constructor <;> linarith
    | succ n ih =>
      intro low high v h0 h1 h2 h
      rw [x2rLoop] at h
      split at h
      · dsimp only at h
        have e2 : (CCmp.lit 2 : ℝ) = 2 := by simp
        rw [e2] at h
        split at h
        · exact ih _ _ v h0 (by linarith) (by linarith) h
        · exact ih _ _ v (by linarith) (by linarith) h2 h
      · simp only [Outcome.ok.injEq, ccmp_lit] at h
        push_cast at h
        constructor <;> linarith
  unfold x2rImpl
  split
  · next v h => exact key 100 0 1 v le_rfl zero_le_one le_rfl h
  · exact ⟨le_rfl, zero_le_one⟩

theorem weights8_sum : |(∑ j ∈ Finset.range 8, Legendre.weight 8 0 j) - 1| ≤ 1 / 10 ^ 15 := by decide +kernel

/-- `√` moves a number near 1 no further away from 1. -/
theorem sqrt_near {r η : ℝ} (h : |r - 1| ≤ η) (hη : η ≤ 1) : |Real.sqrt r - 1| ≤ η := by
  obtain ⟨h1, h2⟩ := abs_le.mp h
  have r0 : 0 ≤ r := by linarith
  have s0 := Real.sqrt_nonneg r
  have e : (Real.sqrt r - 1) * (Real.sqrt r + 1) = r - 1 := by
    have := Real.mul_self_sqrt r0
    linarith [show (Real.sqrt r - 1) * (Real.sqrt r + 1) = Real.sqrt r * Real.sqrt r - 1 by ring]
  refine le_trans ?_ h
  rw [← e, abs_mul, abs_of_nonneg (by linarith : 0 ≤ Real.sqrt r + 1)]
  exact le_mul_of_one_le_right (abs_nonneg _) (by linarith)

/-- **C133.** Let `p`, `w` vary by at most the fraction `ε ≤ 1/1000` around positive `p₀`, `w₀` on `[a, b]`. Then on the whole freshly
built piece the stored polynomials for `p`, `w` and `p·w` are within `81 ε`, `81 ε` and `20600 ε` of `p₀`, `w₀`, `p₀ w₀` (relatively, up
to the `1e-9` the tabulated digits allow), the `x`-length of the piece is within `180 ε` of `√(w₀/p₀) (b - a)`, and the stored map `x(r)`
within `11500 ε` of the straight line of slope `√(w₀/p₀)`. -/
theorem C133_stored {P W : ℝ → ℝ} {a b p0 w0 ε : ℝ} (hab : a < b) (hp0 : 0 < p0) (hw0 : 0 < w0) (hε : ε ≤ 1 / 1000)
    (hP : ∀ r, a ≤ r → r ≤ b → |P r - p0| ≤ ε * p0) (hW : ∀ r, a ≤ r → r ≤ b → |W r - w0| ≤ ε * w0) :
    let pc := mkPiece Real.sqrt P W a b
    (∀ t, 0 ≤ t → t ≤ 1 → |eval pc.p t - p0| ≤ (81 * ε + 1 / 10 ^ 9) * p0 ∧ |eval pc.w t - w0| ≤ (81 * ε + 1 / 10 ^ 9) * w0 ∧
      |eval pc.pwx t - p0 * w0| ≤ (20600 * ε + 1 / 10 ^ 9) * (p0 * w0)) ∧
    |pc.xmax - pc.xmin - Real.sqrt (w0 / p0) * (b - a)| ≤ (180 * ε + 1 / 10 ^ 9) * (Real.sqrt (w0 / p0) * (b - a)) ∧
    ∀ t, 0 ≤ t → t ≤ 1 → |eval pc.r2x t - Real.sqrt (w0 / p0) * ((b - a) * t)| ≤ (11500 * ε + 1 / 10 ^ 9) * (Real.sqrt (w0 / p0) * ((b - a) * t)) := by
  obtain ⟨pc, hpc⟩ : ∃ pc, pc = mkPiece Real.sqrt P W a b := ⟨_, rfl⟩
  rw [← hpc]
  show _ ∧ _
  have ε0 : 0 ≤ ε := by
    have := (abs_nonneg _).trans (hP a le_rfl hab.le)
    exact nonneg_of_mul_nonneg_left this hp0
  obtain ⟨η, hη⟩ : ∃ η, η = 81 * ε + 1 / 10 ^ 12 := ⟨_, rfl⟩
  have η0 : 0 ≤ η := by rw [hη]; positivity
  have η1 : η ≤ 82 / 1000 := by rw [hη]; linarith
  have g8 : (gain 8 (Legendre.kOf (8 + 1)) : ℝ) ≤ 81 := by exact_mod_cast gain_8
  have g10 : (gain 10 (Legendre.kOf (10 + 1)) : ℝ) ≤ 121 := by exact_mod_cast gain_10
  have near : ∀ (f : ℝ → ℝ) (v : ℝ), 0 < v → (∀ r, a ≤ r → r ≤ b → |f r - v| ≤ ε * v) → ∀ t, 0 ≤ t → t ≤ 1 →
      |eval (⟨Legendre.asPolynomial 9 f a b⟩ : Poly ℝ 8) t - v| ≤ η * v := by
    intro f v hv hf t t0 t1
    refine (polynomial_near 8 (by norm_num) f a b v (ε * v) hab hf t t0 t1).trans ?_
    rw [abs_of_pos hv, hη]
    have := mul_le_mul_of_nonneg_right g8 (by positivity : 0 ≤ ε * v)
    linarith
  have np : ∀ t, 0 ≤ t → t ≤ 1 → |eval pc.p t - p0| ≤ η * p0 := by rw [hpc]; exact near P p0 hp0 hP
  have nw : ∀ t, 0 ≤ t → t ≤ 1 → |eval pc.w t - w0| ≤ η * w0 := by rw [hpc]; exact near W w0 hw0 hW
  have pw : ∀ t, 0 ≤ t → t ≤ 1 → |eval pc.p t * eval pc.w t - p0 * w0| ≤ 21 / 10 * η * (p0 * w0) := by
    intro t t0 t1
    have a1 := np t t0 t1
    have a2 := nw t t0 t1
    have e : eval pc.p t * eval pc.w t - p0 * w0 = (eval pc.p t - p0) * (eval pc.w t - w0) + (eval pc.p t - p0) * w0 + p0 * (eval pc.w t - w0) := by
      ring
    rw [e]
    have h1 : |(eval pc.p t - p0) * (eval pc.w t - w0)| ≤ (η * p0) * (η * w0) := by
      rw [abs_mul]; exact mul_le_mul a1 a2 (abs_nonneg _) (by positivity)
    have h2 : |(eval pc.p t - p0) * w0| ≤ η * p0 * w0 := by
      rw [abs_mul, abs_of_pos hw0]; exact mul_le_mul_of_nonneg_right a1 hw0.le
    have h3 : |p0 * (eval pc.w t - w0)| ≤ p0 * (η * w0) := by
      rw [abs_mul, abs_of_pos hp0]; exact mul_le_mul_of_nonneg_left a2 hp0.le
    refine (abs_add_three _ _ _).trans ((add_le_add (add_le_add h1 h2) h3).trans ?_)
    have e2 : η * p0 * (η * w0) + η * p0 * w0 + p0 * (η * w0) = (η * η + 2 * η) * (p0 * w0) := by ring
    rw [e2]
    refine mul_le_mul_of_nonneg_right ?_ (by positivity)
    have := mul_le_mul_of_nonneg_left η1 η0
    linarith
  -- the ratio under the root
  obtain ⟨s0, hs0⟩ : ∃ s0, s0 = Real.sqrt (w0 / p0) := ⟨_, rfl⟩
  have sp : 0 < s0 := by rw [hs0]; exact Real.sqrt_pos.mpr (by positivity)
  have root : ∀ t, 0 ≤ t → t ≤ 1 → |Real.sqrt (eval pc.w t / eval pc.p t) - s0| ≤ 22 / 10 * η * s0 := by
    intro t t0 t1
    obtain ⟨p1, p2⟩ := abs_le.mp (np t t0 t1)
    obtain ⟨w1, w2⟩ := abs_le.mp (nw t t0 t1)
    have m1 : η * p0 ≤ 82 / 1000 * p0 := mul_le_mul_of_nonneg_right η1 hp0.le
    have m2 : η * w0 ≤ 82 / 1000 * w0 := mul_le_mul_of_nonneg_right η1 hw0.le
    have pp : 0 < eval pc.p t := by linarith
    obtain ⟨ρ, hρ⟩ : ∃ ρ, ρ = eval pc.w t / eval pc.p t / (w0 / p0) := ⟨_, rfl⟩
    have q0 : 0 < w0 / p0 := by positivity
    have e : eval pc.w t / eval pc.p t = ρ * (w0 / p0) := by rw [hρ]; field_simp
    have e2 : ρ - 1 = (eval pc.w t * p0 - eval pc.p t * w0) / (eval pc.p t * w0) := by rw [hρ]; field_simp
    have h : |ρ - 1| ≤ 22 / 10 * η := by
      rw [e2, abs_div, abs_of_pos (by positivity : 0 < eval pc.p t * w0), div_le_iff₀ (by positivity)]
      have e3 : eval pc.w t * p0 - eval pc.p t * w0 = (eval pc.w t - w0) * p0 - (eval pc.p t - p0) * w0 := by ring
      rw [e3]
      have k1 : |(eval pc.w t - w0) * p0| ≤ η * w0 * p0 := by
        rw [abs_mul, abs_of_pos hp0]; exact mul_le_mul_of_nonneg_right (nw t t0 t1) hp0.le
      have k2 : |(eval pc.p t - p0) * w0| ≤ η * p0 * w0 := by
        rw [abs_mul, abs_of_pos hw0]; exact mul_le_mul_of_nonneg_right (np t t0 t1) hw0.le
      refine (abs_sub _ _).trans ((add_le_add k1 k2).trans ?_)
      have k3 : 918 / 1000 * p0 ≤ eval pc.p t := by linarith
      have k4 : 22 / 10 * η * (918 / 1000 * p0 * w0) ≤ 22 / 10 * η * (eval pc.p t * w0) :=
        mul_le_mul_of_nonneg_left (mul_le_mul_of_nonneg_right k3 hw0.le) (by positivity)
      refine le_trans ?_ k4
      have : 0 ≤ η * (p0 * w0) := by positivity
      linarith [show η * w0 * p0 + η * p0 * w0 = 2 * (η * (p0 * w0)) by ring,
        show 22 / 10 * η * (918 / 1000 * p0 * w0) = 22 / 10 * (918 / 1000) * (η * (p0 * w0)) by ring]
    have h2 := sqrt_near h (by linarith)
    have ρ0 : 0 ≤ ρ := by have := (abs_le.mp h).1; linarith
    rw [e, Real.sqrt_mul ρ0, ← hs0, show Real.sqrt ρ * s0 - s0 = (Real.sqrt ρ - 1) * s0 by ring, abs_mul, abs_of_pos sp]
    exact mul_le_mul_of_nonneg_right h2 sp.le
  have len : |pc.xmax - pc.xmin - s0 * (b - a)| ≤ (180 * ε + 1 / 10 ^ 9) * (s0 * (b - a)) := by
    have hx := mkPiece_xmax Real.sqrt P W a b
    have h0 : pc.xmin = 0 := by rw [hpc]; rfl
    rw [← hpc] at hx
    rw [h0, sub_zero, hx]
    have ba : 0 < b - a := by linarith
    obtain ⟨S, hS⟩ : ∃ S : ℝ, S = ∑ j ∈ Finset.range 8, (Legendre.weight 8 0 j : ℝ) := ⟨_, rfl⟩
    have hS1 : |S - 1| ≤ 1 / 10 ^ 15 := by
      have := weights8_sum
      have h : ((|(∑ j ∈ Finset.range 8, Legendre.weight 8 0 j) - 1| : ℚ) : ℝ) ≤ ((1 / 10 ^ 15 : ℚ) : ℝ) := by exact_mod_cast this
      push_cast at h
      rw [hS]; exact h
    have d : |∑ j ∈ Finset.range 8, (Legendre.weight 8 0 j : ℝ) * Real.sqrt (eval pc.w (Legendre.samplePoint 8 0 1 j) / eval pc.p (Legendre.samplePoint 8 0 1 j)) - S * s0|
        ≤ S * (22 / 10 * η * s0) := by
      rw [hS, Finset.sum_mul, Finset.sum_mul, ← Finset.sum_sub_distrib]
      refine (Finset.abs_sum_le_sum_abs _ _).trans (Finset.sum_le_sum (fun j hj => ?_))
      have hj := Finset.mem_range.mp hj
      have hw8 : (0 : ℝ) < Legendre.weight 8 0 j := by exact_mod_cast weights8_pos j hj
      have hi := sample8_inside hj
      rw [← mul_sub, abs_mul, abs_of_pos hw8]
      exact mul_le_mul_of_nonneg_left (root _ hi.1.le hi.2.le) hw8.le
    obtain ⟨T, hT⟩ : ∃ T : ℝ, T = ∑ j ∈ Finset.range 8, (Legendre.weight 8 0 j : ℝ) * Real.sqrt (eval pc.w (Legendre.samplePoint 8 0 1 j) / eval pc.p (Legendre.samplePoint 8 0 1 j)) := ⟨_, rfl⟩
    rw [← hT] at d ⊢
    have f1 : |T - s0| ≤ (180 * ε + 1 / 10 ^ 9) * s0 := by
      have t1 : |T - s0| ≤ |T - S * s0| + |S - 1| * s0 := by
        have e : T - s0 = (T - S * s0) + (S - 1) * s0 := by ring
        rw [e]
        refine (abs_add_le _ _).trans ?_
        rw [abs_mul (S - 1), abs_of_pos sp]
      have s1 : S ≤ 1 + 1 / 10 ^ 15 := by have := (abs_le.mp hS1).2; linarith
      have u1 : S * (22 / 10 * η * s0) ≤ (1 + 1 / 10 ^ 15) * (22 / 10 * η * s0) := mul_le_mul_of_nonneg_right s1 (by positivity)
      have u2 : |S - 1| * s0 ≤ 1 / 10 ^ 15 * s0 := mul_le_mul_of_nonneg_right hS1 sp.le
      have u3 : (1 + 1 / 10 ^ 15) * (22 / 10 * η * s0) + 1 / 10 ^ 15 * s0 = ((1 + 1 / 10 ^ 15) * (22 / 10) * η + 1 / 10 ^ 15) * s0 := by ring
      have u4 : ((1 + 1 / 10 ^ 15) * (22 / 10) * η + 1 / 10 ^ 15) * s0 ≤ (180 * ε + 1 / 10 ^ 9) * s0 := by
        refine mul_le_mul_of_nonneg_right ?_ sp.le
        rw [hη]
        linarith
      linarith
    rw [show (b - a) * T - s0 * (b - a) = (T - s0) * (b - a) by ring, abs_mul, abs_of_pos ba, ← mul_assoc]
    exact mul_le_mul_of_nonneg_right f1 ba.le
  have line : ∀ t, 0 ≤ t → t ≤ 1 → |eval pc.r2x t - s0 * ((b - a) * t)| ≤ (11500 * ε + 1 / 10 ^ 9) * (s0 * ((b - a) * t)) := by
    intro t t0 t1
    have ba : 0 < b - a := by linarith
    obtain ⟨dens, hdens⟩ : ∃ dens : Poly ℝ 7, dens = ⟨Legendre.asPolynomial (7 + 1) (fun r => Real.sqrt (eval pc.w r / eval pc.p r)) 0 1⟩ := ⟨_, rfl⟩
    have g7 : (gain 7 (Legendre.kOf (7 + 1)) : ℝ) ≤ 64 := by exact_mod_cast gain_7
    have nd : ∀ u, 0 ≤ u → u ≤ 1 → |eval dens u - s0| ≤ (11500 * ε + 1 / 10 ^ 9) * s0 := by
      intro u u0 u1
      rw [hdens]
      refine (polynomial_near 7 (by norm_num) _ 0 1 s0 (22 / 10 * η * s0) zero_lt_one (fun r r0 r1 => root r r0 r1) u u0 u1).trans ?_
      rw [abs_of_pos sp]
      have h1 := mul_le_mul_of_nonneg_right g7 (by positivity : 0 ≤ 22 / 10 * η * s0)
      have h2 : 64 * (22 / 10 * η * s0) + 1 / 10 ^ 12 * s0 = (64 * (22 / 10) * η + 1 / 10 ^ 12) * s0 := by ring
      have h3 : (64 * (22 / 10) * η + 1 / 10 ^ 12) * s0 ≤ (11500 * ε + 1 / 10 ^ 9) * s0 := by
        refine mul_le_mul_of_nonneg_right ?_ sp.le
        rw [hη]
        linarith
      linarith
    have e : eval pc.r2x t = integralAt dens t * (b - a) := by
      rw [hpc, hdens, hpc]
      exact (C43_scalar (integral (⟨Legendre.asPolynomial 8 _ 0 1⟩ : Poly ℝ 7)) (b - a) t).2.1.trans (by rw [(C44_integral_overloads _ _).1]; rfl)
    have ci : ∀ u v, IntervalIntegrable (fun r => eval dens r) MeasureTheory.volume u v := by
      have hc : Continuous (fun r => eval dens r) := by
        have e : (fun r => eval dens r) = fun r => (toPoly dens).eval r := by funext r; rw [toPoly_eval]
        rw [e]; exact (toPoly dens).continuous
      exact fun u v => hc.intervalIntegrable u v
    have e2 : integralAt dens t - s0 * t = ∫ r in (0 : ℝ)..t, (eval dens r - s0) := by
      rw [intervalIntegral.integral_sub (ci 0 t) intervalIntegrable_const, C44_integral_value, intervalIntegral.integral_const]
      simp [mul_comm]
    have e3 : |integralAt dens t - s0 * t| ≤ (11500 * ε + 1 / 10 ^ 9) * s0 * t := by
      rw [e2]
      have := intervalIntegral.norm_integral_le_of_norm_le_const (a := 0) (b := t) (f := fun r => eval dens r - s0) (C := (11500 * ε + 1 / 10 ^ 9) * s0)
        (fun r hr => by
          rw [Set.uIoc_of_le t0] at hr
          exact nd r hr.1.le (hr.2.trans t1))
      rw [sub_zero, abs_of_nonneg t0] at this
      exact this
    rw [e, show integralAt dens t * (b - a) - s0 * ((b - a) * t) = (integralAt dens t - s0 * t) * (b - a) by ring, abs_mul, abs_of_pos ba]
    refine (mul_le_mul_of_nonneg_right e3 ba.le).trans (le_of_eq (by ring))
  have xpos : 0 < pc.xmax := by
    have h0 : pc.xmin = 0 := by rw [hpc]; rfl
    rw [h0, sub_zero] at len
    have := (abs_le.mp len).1
    have q : 0 < s0 * (b - a) := mul_pos sp (by linarith)
    have q2 : (180 * ε + 1 / 10 ^ 9) * (s0 * (b - a)) ≤ 1 / 2 * (s0 * (b - a)) := mul_le_mul_of_nonneg_right (by linarith) q.le
    linarith
  refine ⟨fun t t0 t1 => ⟨(np t t0 t1).trans ?_, (nw t t0 t1).trans ?_, ?_⟩, by rw [← hs0]; exact len, fun t t0 t1 => by rw [← hs0]; exact line t t0 t1⟩
  · exact mul_le_mul_of_nonneg_right (by rw [hη]; norm_num) hp0.le
  · exact mul_le_mul_of_nonneg_right (by rw [hη]; norm_num) hw0.le
  · have hpwx : pc.pwx = ⟨Legendre.asPolynomial (10 + 1) (fun x => eval pc.p (x2rImpl pc.r2x x) * eval pc.w (x2rImpl pc.r2x x)) 0 pc.xmax⟩ := by
      rw [hpc]; rfl
    rw [hpwx]
    refine (polynomial_near 10 (by norm_num) _ 0 pc.xmax (p0 * w0) (21 / 10 * η * (p0 * w0)) xpos (fun x _ _ => ?_) t t0 t1).trans ?_
    · have := x2rImpl_inside pc.r2x x
      exact pw _ this.1 this.2
    · have z : 0 < p0 * w0 := mul_pos hp0 hw0
      rw [abs_of_pos z]
      have := mul_le_mul_of_nonneg_right g10 (by positivity : 0 ≤ 21 / 10 * η * (p0 * w0))
      have e : 121 * (21 / 10 * η * (p0 * w0)) + 1 / 10 ^ 12 * (p0 * w0) = (121 * (21 / 10) * η + 1 / 10 ^ 12) * (p0 * w0) := by ring
      have u : (121 * (21 / 10) * η + 1 / 10 ^ 12) * (p0 * w0) ≤ (20600 * ε + 1 / 10 ^ 9) * (p0 * w0) := by
        refine mul_le_mul_of_nonneg_right ?_ z.le
        rw [hη]
        linarith
      linarith

/-- The hypotheses are met by non-constant coefficients: `p = 1 + r/2000`, `w = 2` on `[0, 1]` with `ε = 1/2000`. -/
example : (0 : ℝ) < 1 ∧ (1 / 2000 : ℝ) ≤ 1 / 1000 ∧ (∀ r : ℝ, 0 ≤ r → r ≤ 1 → |(1 + r / 2000) - 1| ≤ 1 / 2000 * 1) ∧
    ∀ r : ℝ, 0 ≤ r → r ≤ 1 → |(2 : ℝ) - 2| ≤ 1 / 2000 * 2 := by
  refine ⟨by norm_num, by norm_num, fun r r0 r1 => ?_, fun r _ _ => by norm_num⟩
  rw [abs_le]
  constructor <;> linarith

end Verif.Liouville
