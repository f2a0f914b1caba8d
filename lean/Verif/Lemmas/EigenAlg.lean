import Verif.Props.Eigen

/-!
# The algebra of `matchFactor`, `squaredNorm` and `normOf`
-/
namespace Verif.Solver
open Verif.YT Verif.Eigen

/-- `t = l / r` when `r` is bounded away from zero. -/
theorem ratio_near {l r p η c : ℝ} (hc : 0 < c) (hl : |l - p| ≤ η) (hr : |r - p| ≤ η) (hp : 1 / (2 * c) ≤ |r|) : |l / r - 1| ≤ 4 * c * η := by
  have r0 : 0 < |r| := lt_of_lt_of_le (by positivity) hp
  have hr0 : r ≠ 0 := abs_pos.mp r0
  have e : l / r - 1 = (l - r) / r := by field_simp
  rw [e, abs_div, div_le_iff₀ r0]
  have h1 : |l - r| ≤ 2 * η := by
    have := abs_sub_le l p r
    rw [abs_sub_comm p r] at this
    linarith
  have η0 : 0 ≤ η := (abs_nonneg _).trans hl
  have h2 : 4 * c * η * (1 / (2 * c)) ≤ 4 * c * η * |r| := mul_le_mul_of_nonneg_left hp (by positivity)
  have e2 : 4 * c * η * (1 / (2 * c)) = 2 * η := by field_simp; ring
  linarith

/-- If the sums of the scaled first values exceed those of the second values, the exact first value is the larger one up to `2 η`. -/
theorem dominant {α β p q η a0 a1 b0 b1 : ℝ} (hα : α ≠ 0) (hβ : β ≠ 0) (h1 : |α * a0 - p| ≤ η) (h2 : |α * a1 - q| ≤ η) (h3 : |β * b0 - p| ≤ η) (h4 : |β * b1 - q| ≤ η)
    (h : |b1| + |a1| ≤ |b0| + |a0|) : |q| ≤ |p| + 2 * η := by
  have A := abs_pos.mpr hα
  have B := abs_pos.mpr hβ
  have up : ∀ {x g w : ℝ}, 0 < |x| → |x * g - w| ≤ η → |g| * |x| ≤ |w| + η := by
    intro x g w _ hw
    have := abs_sub_abs_le_abs_sub (x * g) w
    rw [abs_mul] at this
    linarith [mul_comm |g| |x|]
  have lo : ∀ {x g w : ℝ}, 0 < |x| → |x * g - w| ≤ η → |w| - η ≤ |g| * |x| := by
    intro x g w _ hw
    have := abs_sub_abs_le_abs_sub w (x * g)
    rw [abs_mul, abs_sub_comm w] at this
    linarith [mul_comm |g| |x|]
  have k1 : |a0| ≤ (|p| + η) / |α| := by rw [le_div_iff₀ A]; exact up A h1
  have k2 : (|q| - η) / |α| ≤ |a1| := by rw [div_le_iff₀ A]; exact lo A h2
  have k3 : |b0| ≤ (|p| + η) / |β| := by rw [le_div_iff₀ B]; exact up B h3
  have k4 : (|q| - η) / |β| ≤ |b1| := by rw [div_le_iff₀ B]; exact lo B h4
  have k5 : (|q| - η) * (1 / |α| + 1 / |β|) ≤ (|p| + η) * (1 / |α| + 1 / |β|) := by
    have e1 : (|q| - η) * (1 / |α| + 1 / |β|) = (|q| - η) / |α| + (|q| - η) / |β| := by ring
    have e2 : (|p| + η) * (1 / |α| + 1 / |β|) = (|p| + η) / |α| + (|p| + η) / |β| := by ring
    linarith
  have := le_of_mul_le_mul_right k5 (by positivity)
  linarith

theorem lower_of_dominant {p q r η c : ℝ} (hc : 0 < c) (hη : 6 * c * η ≤ 1) (hs : 1 / c ≤ max |p| |q|) (hd : |q| ≤ |p| + 2 * η) (hr : |r - p| ≤ η) (η0 : 0 ≤ η) : 1 / (2 * c) ≤ |r| := by
  have h1 : max |p| |q| ≤ |p| + 2 * η := max_le (by linarith) hd
  have h2 := abs_sub_abs_le_abs_sub p r
  rw [abs_sub_comm p r] at h2
  have h3 : 3 * η ≤ 1 / (2 * c) := by
    rw [le_div_iff₀ (by positivity)]; linarith
  have h4 : 1 / c = 1 / (2 * c) + 1 / (2 * c) := by field_simp; norm_num
  linarith

/-- The factor for the right part. -/
theorem matchFactor_near {yl yr : Y ℝ} {α β p q η c : ℝ} (hc : 1 ≤ c) (hα : α ≠ 0) (hβ : β ≠ 0) (h1 : |α * yl.y - p| ≤ η) (h2 : |α * yl.dy - q| ≤ η) (h3 : |β * yr.y - p| ≤ η)
    (h4 : |β * yr.dy - q| ≤ η) (hs : 1 / c ≤ max |p| |q|) (hη : 6 * c * η ≤ 1) : ∃ t, matchFactor yl yr = β / α * t ∧ |t - 1| ≤ 4 * c * η := by
  have c0 : 0 < c := by linarith
  have η0 : 0 ≤ η := (abs_nonneg _).trans h1
  unfold matchFactor
  simp only [absK_abs, ccmp_lt, decide_eq_true_eq]
  split
  · next hlt =>
    have dm := dominant hα hβ h1 h2 h3 h4 hlt.le
    have lw := lower_of_dominant c0 hη hs dm h3 η0
    refine ⟨α * yl.y / (β * yr.y), ?_, ratio_near c0 h1 h3 lw⟩
    have : β * yr.y ≠ 0 := abs_pos.mp (lt_of_lt_of_le (by positivity) lw)
    have : yr.y ≠ 0 := right_ne_zero_of_mul this
    field_simp
  · next hge =>
    have dm := dominant hα hβ h2 h1 h4 h3 (not_lt.mp hge)
    have lw := lower_of_dominant c0 hη (by rw [max_comm]; exact hs) dm h4 η0
    refine ⟨α * yl.dy / (β * yr.dy), ?_, ratio_near c0 h2 h4 lw⟩
    have : β * yr.dy ≠ 0 := abs_pos.mp (lt_of_lt_of_le (by positivity) lw)
    have : yr.dy ≠ 0 := right_ne_zero_of_mul this
    field_simp

theorem inv_sqrt_near {ν ρ : ℝ} (hρ : ρ ≤ 1 / 2) (h : |ν - 1| ≤ ρ) : 0 < ν ∧ |1 / Real.sqrt ν - 1| ≤ 2 * ρ ∧ 1 / Real.sqrt ν ≤ 2 := by
  have h' := abs_le.mp h
  have ν0 : 1 / 4 ≤ ν := by linarith
  have s1 : 1 / 2 ≤ Real.sqrt ν := by
    rw [show (1 / 2 : ℝ) = Real.sqrt (1 / 4) by rw [show (1 / 4 : ℝ) = (1 / 2) ^ 2 by norm_num, Real.sqrt_sq (by norm_num)]]
    exact Real.sqrt_le_sqrt ν0
  have s0 : 0 < Real.sqrt ν := by linarith
  have sq := Real.mul_self_sqrt (show 0 ≤ ν by linarith)
  refine ⟨by linarith, ?_, ?_⟩
  · have e : 1 / Real.sqrt ν - 1 = (1 - Real.sqrt ν) / Real.sqrt ν := by field_simp
    rw [e, abs_div, abs_of_pos s0, div_le_iff₀ s0]
    have k1 : |1 - Real.sqrt ν| * (1 + Real.sqrt ν) = |ν - 1| := by
      have q : |1 + Real.sqrt ν| = 1 + Real.sqrt ν := abs_of_pos (by linarith)
      calc |1 - Real.sqrt ν| * (1 + Real.sqrt ν) = |(1 - Real.sqrt ν) * (1 + Real.sqrt ν)| := by rw [abs_mul, q]
        _ = |1 - Real.sqrt ν * Real.sqrt ν| := by congr 1; ring
        _ = |ν - 1| := by rw [sq, abs_sub_comm]
    have k2 : |1 - Real.sqrt ν| ≤ ρ := by
      have : |1 - Real.sqrt ν| * 1 ≤ |1 - Real.sqrt ν| * (1 + Real.sqrt ν) := mul_le_mul_of_nonneg_left (by linarith) (abs_nonneg _)
      linarith
    have ρ0 : 0 ≤ ρ := (abs_nonneg _).trans h
    have : ρ ≤ 2 * ρ * Real.sqrt ν := by nlinarith
    linarith
  · rw [div_le_iff₀ s0]; linarith

/-- **The normalisation.** If, after scaling by `α` and `β`, both sides are near the values `(p, q)` of a normalised function and the two parts of
the norm are near its two integrals, both factors are near `±α`, `±β`. -/
theorem norm_alg {yl yr : Y ℝ} {α β p q η c A B : ℝ} (hc : 1 ≤ c) (hα : α ≠ 0) (hβ : β ≠ 0) (h1 : |α * yl.y - p| ≤ η) (h2 : |α * yl.dy - q| ≤ η) (h3 : |β * yr.y - p| ≤ η)
    (h4 : |β * yr.dy - q| ≤ η) (hs : 1 / c ≤ max |p| |q|) (hη : 34 * c * η ≤ 1) (hA : 0 ≤ A) (hB : 0 ≤ B) (hAB : A + B = 1)
    (h5 : |α ^ 2 * (yl.yE * yl.dy - yl.dyE * yl.y) - A| ≤ η) (h6 : |β ^ 2 * (yr.yE * yr.dy - yr.dyE * yr.y) + B| ≤ η) :
    ∃ ς kL kR : ℝ, (ς = 1 ∨ ς = -1) ∧ 1 / normOf Real.sqrt yl yr = ς * α * kL ∧ matchFactor yl yr / normOf Real.sqrt yl yr = ς * β * kR ∧
      |kL - 1| ≤ 42 * c * η ∧ |kR - 1| ≤ 42 * c * η := by
  have c0 : 0 < c := by linarith
  have η0 : 0 ≤ η := (abs_nonneg _).trans h1
  have cη : η ≤ c * η := le_mul_of_one_le_left η0 hc
  have cη0 : 0 ≤ c * η := by positivity
  obtain ⟨t, ht, t1⟩ := matchFactor_near hc hα hβ h1 h2 h3 h4 hs (by linarith)
  have t1' := abs_le.mp t1
  have tl : |t| ≤ 2 := by rw [abs_le]; constructor <;> linarith
  set N := squaredNorm yl yr with hN
  have eN : α ^ 2 * N = α ^ 2 * (yl.yE * yl.dy - yl.dyE * yl.y) - t ^ 2 * (β ^ 2 * (yr.yE * yr.dy - yr.dyE * yr.y)) := by
    rw [hN]; unfold squaredNorm; simp only [ht]; field_simp
  have t2 : |t ^ 2 - 1| ≤ 12 * (c * η) := by
    rw [show t ^ 2 - 1 = (t - 1) * (t + 1) by ring, abs_mul]
    have : |t + 1| ≤ 3 := (abs_add_le _ _).trans (by rw [abs_one]; linarith)
    calc _ ≤ 4 * c * η * 3 := mul_le_mul t1 this (abs_nonneg _) (by positivity)
      _ = _ := by ring
  have t4 : t ^ 2 ≤ 4 := by rw [← sq_abs]; nlinarith [abs_nonneg t]
  have ν1 : |α ^ 2 * N - 1| ≤ 17 * (c * η) := by
    set X := α ^ 2 * (yl.yE * yl.dy - yl.dyE * yl.y)
    set Z := β ^ 2 * (yr.yE * yr.dy - yr.dyE * yr.y)
    have e : α ^ 2 * N - 1 = (X - A) - t ^ 2 * (Z + B) + (t ^ 2 - 1) * B := by rw [eN]; linear_combination hAB
    rw [e]
    have b1 : |t ^ 2 * (Z + B)| ≤ 4 * η := by
      rw [abs_mul, abs_of_nonneg (sq_nonneg t)]
      exact mul_le_mul t4 h6 (abs_nonneg _) (by norm_num)
    have b2 : |(t ^ 2 - 1) * B| ≤ 12 * (c * η) := by
      rw [abs_mul, abs_of_nonneg hB]
      calc _ ≤ 12 * (c * η) * 1 := mul_le_mul t2 (by linarith) hB (by positivity)
        _ = _ := by ring
    have b3 := abs_add_le ((X - A) - t ^ 2 * (Z + B)) ((t ^ 2 - 1) * B)
    have b4 := abs_sub (X - A) (t ^ 2 * (Z + B))
    linarith
  obtain ⟨ν0, k1, k2⟩ := inv_sqrt_near (by linarith) ν1
  have hN0 : 0 < N := by
    have := sq_nonneg α
    by_contra h
    have := mul_nonneg_of_nonpos_of_nonpos (show -(α ^ 2) ≤ 0 by linarith) (not_lt.mp h)
    linarith
  have hnorm : normOf Real.sqrt yl yr = Real.sqrt N := by
    unfold normOf
    rw [if_pos (by simpa using hN0)]
  have es : Real.sqrt (α ^ 2 * N) = |α| * Real.sqrt N := by rw [Real.sqrt_mul (sq_nonneg α), Real.sqrt_sq_eq_abs]
  obtain ⟨ς, hς, hςα⟩ : ∃ ς : ℝ, (ς = 1 ∨ ς = -1) ∧ |α| = ς * α := by
    rcases abs_choice α with h | h
    · exact ⟨1, .inl rfl, by rw [h]; ring⟩
    · exact ⟨-1, .inr rfl, by rw [h]; ring⟩
  have ς2 : ς * ς = 1 := by rcases hς with h | h <;> rw [h] <;> norm_num
  have ς0 : ς ≠ 0 := by rcases hς with h | h <;> rw [h] <;> norm_num
  have sN : Real.sqrt N ≠ 0 := (Real.sqrt_pos.mpr hN0).ne'
  set k := 1 / Real.sqrt (α ^ 2 * N) with hk
  have ek : 1 / Real.sqrt N = ς * α * k := by
    rw [hk, es, hςα]; field_simp
  refine ⟨ς, k, t * k, hς, by rw [hnorm, ek], ?_, by linarith, ?_⟩
  · rw [hnorm, ht, show β / α * t / Real.sqrt N = β / α * t * (1 / Real.sqrt N) by ring, ek]
    field_simp
  · have e : t * k - 1 = (t - 1) * k + (k - 1) := by ring
    have k0 : 0 ≤ k := by rw [hk]; positivity
    rw [e]
    refine (abs_add_le _ _).trans ?_
    rw [abs_mul, abs_of_nonneg k0]
    have : |t - 1| * k ≤ 4 * c * η * 2 := mul_le_mul t1 k2 k0 (by positivity)
    linarith

end Verif.Solver
