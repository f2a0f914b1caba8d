import Verif.Lemmas.FlEigenChain

/-!
# The normalisation of the eigenfunction in finite precision
-/
namespace Verif.Fp
open Verif.Mesh Verif.YT Verif.CalcT Verif.Propag Verif.Solver Verif.Spec Verif.Legendre Verif.Eigen

variable {fl : ℝ → ℝ} {u mu w : ℝ}

theorem absK_fl (x : Fl fl) : (Eta.absK x).val = |x.val| := by
  unfold Eta.absK
  simp only [Fl.lt_def, Fl.zero_val, decide_eq_true_eq]
  split
  · next h => rw [abs_of_neg h]; rfl
  · next h => rw [abs_of_nonneg (not_lt.mp h)]

/-- a rounded quotient, scaled -/
theorem quot_fl (hA : Arith u mu w fl) {x y γ t b : ℝ} (hb : 1 ≤ b) (hγ : γ ≠ 0) (hγb : |γ| ≤ b) (hγ' : |γ⁻¹| ≤ b) (ht : |t| ≤ 6) (h : x / y = γ * t) :
    ∃ t', fl (x / y) = γ * t' ∧ |t' - t| ≤ 6 * b ^ 2 * u := by
  refine ⟨γ⁻¹ * fl (x / y), by field_simp, ?_⟩
  have e := hA.r.err (x / y)
  have u0 := hA.u0
  have m : max |x / y| mu ≤ 6 * b := by
    refine max_le ?_ (by have := hA.mu1; linarith)
    rw [h, abs_mul]
    calc |γ| * |t| ≤ b * 6 := mul_le_mul hγb ht (abs_nonneg _) (by linarith)
      _ = 6 * b := by ring
  have e' := e.trans (mul_le_mul_of_nonneg_left m u0)
  have : γ⁻¹ * fl (x / y) - t = γ⁻¹ * (fl (x / y) - x / y) := by rw [h]; field_simp
  rw [this, abs_mul]
  calc |γ⁻¹| * |fl (x / y) - x / y| ≤ b * (u * (6 * b)) := mul_le_mul hγ' e' (abs_nonneg _) (by linarith)
    _ = _ := by ring

/-- **The factor for the right part**, rounded. -/
theorem factor_fl (hA : Arith u mu w fl) {yl yr : Y (Fl fl)} {α β p q η c b : ℝ} (hc : 1 ≤ c) (hb : 1 ≤ b) (hα : α ≠ 0) (hβ : β ≠ 0) (hαb : |α| ≤ b) (hγ : |β / α| ≤ b ^ 2) (hγ' : |(β / α)⁻¹| ≤ b ^ 2)
    (l1 : |yl.y.val| ≤ b) (l2 : |yl.dy.val| ≤ b) (r1 : |yr.y.val| ≤ b) (r2 : |yr.dy.val| ≤ b)
    (h1 : |α * yl.y.val - p| ≤ η) (h2 : |α * yl.dy.val - q| ≤ η) (h3 : |β * yr.y.val - p| ≤ η)
    (h4 : |β * yr.dy.val - q| ≤ η) (hs : 1 / c ≤ max |p| |q|) (hη : 6 * c * (η + 4 * b ^ 2 * u) ≤ 1) :
    ∃ t, (matchFactor yl yr).val = β / α * t ∧ |t - 1| ≤ 4 * c * (η + 4 * b ^ 2 * u) + 6 * b ^ 4 * u := by
  have c0 : 0 < c := by linarith
  have u0 := hA.u0
  have η0 : 0 ≤ η := (abs_nonneg _).trans h1
  have b2 : 1 ≤ b ^ 2 := one_le_pow₀ hb
  have γ0 : β / α ≠ 0 := div_ne_zero hβ hα
  obtain ⟨e, he⟩ : ∃ e, e = η + 4 * b ^ 2 * u := ⟨_, rfl⟩
  rw [← he] at hη ⊢
  have bu : 0 ≤ 4 * b ^ 2 * u := by positivity
  have ηe : η ≤ e := by linarith
  have e0 : 0 ≤ e := by linarith
  have fin : ∀ x y P : ℝ, |α * x - P| ≤ e → |β * y - P| ≤ e → 1 / (2 * c) ≤ |β * y| → ∃ t, fl (x / y) = β / α * t ∧ |t - 1| ≤ 4 * c * e + 6 * b ^ 4 * u := by
    intro x y P k1 k2 lw
    have rn := ratio_near c0 k1 k2 lw
    have y0 : β * y ≠ 0 := abs_pos.mp (lt_of_lt_of_le (by positivity) lw)
    have y0' : y ≠ 0 := right_ne_zero_of_mul y0
    have t6 : |α * x / (β * y)| ≤ 6 := by
      have := abs_add_le (α * x / (β * y) - 1) 1
      rw [sub_add_cancel, abs_one] at this
      linarith
    obtain ⟨t, q1, q2⟩ := quot_fl hA (x := x) (y := y) (γ := β / α) (t := α * x / (β * y)) b2 γ0 hγ hγ' t6 (by field_simp)
    refine ⟨t, q1, ?_⟩
    have := abs_sub_le t (α * x / (β * y)) 1
    have e4 : 6 * (b ^ 2) ^ 2 * u = 6 * b ^ 4 * u := by ring
    linarith
  unfold matchFactor
  simp only [Fl.lt_def, Fl.add_val, absK_fl, decide_eq_true_eq]
  split
  · next hlt =>
    have hlt' : |yr.dy.val| + |yl.dy.val| ≤ |yr.y.val| + |yl.y.val| := by
      by_contra h
      exact absurd hlt (not_lt.mpr (hA.r.mono (not_le.mp h).le))
    have dm := dominant hα hβ (h1.trans ηe) (h2.trans ηe) (h3.trans ηe) (h4.trans ηe) hlt'
    have lw := lower_of_dominant c0 hη hs dm (h3.trans ηe) e0
    exact fin _ _ p (h1.trans ηe) (h3.trans ηe) lw
  · next hge =>
    have hge' := not_lt.mp hge
    have er : ∀ x y : ℝ, |x| ≤ b → |y| ≤ b → |fl (|x| + |y|) - (|x| + |y|)| ≤ u * (2 * b) := fun x y hx hy => by
      refine (hA.r.err _).trans (mul_le_mul_of_nonneg_left (max_le ?_ ?_) u0)
      · rw [abs_of_nonneg (by positivity)]; linarith
      · have := hA.mu1; linarith
    have q1 := abs_le.mp (er _ _ r1 l1)
    have q2 := abs_le.mp (er _ _ r2 l2)
    have slack : |yr.y.val| + |yl.y.val| ≤ |yr.dy.val| + (|yl.dy.val| + 4 * b * u) := by linarith
    obtain ⟨x, hx1, hx2⟩ : ∃ x : ℝ, |x| = |yl.dy.val| + 4 * b * u ∧ |x - yl.dy.val| ≤ 4 * b * u := by
      have p0 : 0 ≤ 4 * b * u := by positivity
      rcases le_total 0 yl.dy.val with h | h
      · exact ⟨yl.dy.val + 4 * b * u, by rw [abs_of_nonneg (by linarith), abs_of_nonneg h], by rw [add_sub_cancel_left, abs_of_nonneg p0]⟩
      · exact ⟨yl.dy.val - 4 * b * u, by rw [abs_of_nonpos (by linarith), abs_of_nonpos h]; ring, by rw [sub_sub_cancel_left, abs_neg, abs_of_nonneg p0]⟩
    rw [← hx1] at slack
    have h2' : |α * x - q| ≤ e := by
      have e1 : α * x - q = (α * yl.dy.val - q) + α * (x - yl.dy.val) := by ring
      rw [e1]
      refine (abs_add_le _ _).trans ?_
      rw [abs_mul, he]
      have := mul_le_mul hαb hx2 (abs_nonneg _) (by linarith)
      linarith only [this, h2, (by ring : b * (4 * b * u) = 4 * b ^ 2 * u)]
    have dm := dominant hα hβ h2' (h1.trans ηe) (h4.trans ηe) (h3.trans ηe) slack
    have lw := lower_of_dominant c0 hη (by rw [max_comm]; exact hs) dm (h4.trans ηe) e0
    exact fin _ _ q (h2.trans ηe) (h4.trans ηe) lw

/-- **The squared norm**, rounded, against exact arithmetic with the computed factor. -/
theorem squaredNorm_fl (hA : Arith u mu w fl) {yl yr : Y (Fl fl)} {B : ℝ} (hB : 1 ≤ B) (l1 : |yl.y.val| ≤ B) (l2 : |yl.dy.val| ≤ B) (l3 : |yl.yE.val| ≤ B) (l4 : |yl.dyE.val| ≤ B)
    (r1 : |yr.y.val| ≤ B) (r2 : |yr.dy.val| ≤ B) (r3 : |yr.yE.val| ≤ B) (r4 : |yr.dyE.val| ≤ B) (hs : |(matchFactor yl yr).val| ≤ B) :
    |(squaredNorm yl yr).val - ((yl.yE.val * yl.dy.val - yl.dyE.val * yl.y.val) - (matchFactor yl yr).val ^ 2 * (yr.yE.val * yr.dy.val - yr.dyE.val * yr.y.val))| ≤ 60000 * B ^ 4 * w := by
  have ex : ∀ {x : Fl fl}, |x.val| ≤ B → Rel w 1 B x x.val := fun h => Rel.exact hA zero_le_one (by linarith) (by linarith)
  have m1 : mu ≤ (1 : ℝ) * 1 := by linarith [hA.mu1]
  have mul : ∀ {a b : ℝ} {x y : Fl fl} {x' y' : ℝ}, 1 ≤ a → 1 ≤ b → Rel w 1 a x x' → Rel w 1 b y y' → Rel w 1 (12 * a * b) (x * y) (x' * y') := fun {a b x y x' y'} ha hb hx hy => by
    have := Rel.mul hA zero_le_one zero_le_one m1 ha hb hx hy
    rw [one_mul] at this
    refine this.mono hA zero_le_one (le_of_eq (by ring))
  have p : ∀ {x y : Fl fl}, |x.val| ≤ B → |y.val| ≤ B → Rel w 1 (12 * B * B) (x * y) (x.val * y.val) := fun hx hy => mul hB hB (ex hx) (ex hy)
  have B2 : 1 ≤ 12 * B * B := by nlinarith
  have dl := Rel.sub hA hA.mu1 B2 B2 (p l3 l2) (p l4 l1)
  have dr := Rel.sub hA hA.mu1 B2 B2 (p r3 r2) (p r4 r1)
  have D1 : 1 ≤ 4 * (12 * B * B + 12 * B * B) := by linarith
  have m := mul B2 D1 (p hs hs) dr
  have M1 : 1 ≤ 12 * (12 * B * B) * (4 * (12 * B * B + 12 * B * B)) := by nlinarith
  have f := (Rel.sub hA hA.mu1 D1 M1 dl m).2
  have e : (squaredNorm yl yr).val - ((yl.yE.val * yl.dy.val - yl.dyE.val * yl.y.val) - (matchFactor yl yr).val ^ 2 * (yr.yE.val * yr.dy.val - yr.dyE.val * yr.y.val)) =
    ((yl.yE * yl.dy - yl.dyE * yl.y) - matchFactor yl yr * matchFactor yl yr * (yr.yE * yr.dy - yr.dyE * yr.y)).val -
      ((yl.yE.val * yl.dy.val - yl.dyE.val * yl.y.val) - (matchFactor yl yr).val * (matchFactor yl yr).val * (yr.yE.val * yr.dy.val - yr.dyE.val * yr.y.val)) := by
    unfold squaredNorm; simp only [pow_two]
  rw [e]
  refine f.trans (mul_le_mul_of_nonneg_right ?_ hA.w0)
  have B4 : B ^ 2 ≤ B ^ 4 := pow_le_pow_right₀ hB (by norm_num)
  nlinarith

set_option maxHeartbeats 800000 in
/-- **The normalisation, rounded** (see `norm_alg`). `b` bounds all numbers, `a` is the accuracy of the square root. -/
theorem norm_fl (hA : Arith u mu w fl) {sqrt : Fl fl → Fl fl} {a : ℝ} (ha : 0 ≤ a) (hsq : ∀ x : Fl fl, 0 < x.val → |(sqrt x).val - Real.sqrt x.val| ≤ a * max (Real.sqrt x.val) mu)
    {yl yr : Y (Fl fl)} {α β p q η c b A B : ℝ} (hc : 1 ≤ c) (hb : 1 ≤ b) (hα : α ≠ 0) (hβ : β ≠ 0) (hαb : |α| ≤ b) (hβb : |β| ≤ b) (hαi : |α⁻¹| ≤ b) (hβi : |β⁻¹| ≤ b)
    (l1 : |yl.y.val| ≤ b) (l2 : |yl.dy.val| ≤ b) (l3 : |yl.yE.val| ≤ b) (l4 : |yl.dyE.val| ≤ b)
    (r1 : |yr.y.val| ≤ b) (r2 : |yr.dy.val| ≤ b) (r3 : |yr.yE.val| ≤ b) (r4 : |yr.dyE.val| ≤ b)
    (h1 : |α * yl.y.val - p| ≤ η) (h2 : |α * yl.dy.val - q| ≤ η) (h3 : |β * yr.y.val - p| ≤ η) (h4 : |β * yr.dy.val - q| ≤ η) (hs : 1 / c ≤ max |p| |q|)
    (hη : 10 ^ 8 * (c * b ^ 10) * (η + w + a) ≤ 1) (hA0 : 0 ≤ A) (hB0 : 0 ≤ B) (hAB : A + B = 1)
    (h5 : |α ^ 2 * (yl.yE.val * yl.dy.val - yl.dyE.val * yl.y.val) - A| ≤ η) (h6 : |β ^ 2 * (yr.yE.val * yr.dy.val - yr.dyE.val * yr.y.val) + B| ≤ η) :
    ∃ ς kL kR : ℝ, (ς = 1 ∨ ς = -1) ∧ (CCmp.lit 1 / normOf sqrt yl yr).val = ς * α * kL ∧ (matchFactor yl yr / normOf sqrt yl yr).val = ς * β * kR ∧
      |kL - 1| ≤ 10 ^ 8 * (c * b ^ 10) * (η + w + a) ∧ |kR - 1| ≤ 10 ^ 8 * (c * b ^ 10) * (η + w + a) := by
  have c0 : 0 < c := by linarith
  have b0 : 0 < b := by linarith
  have u0 := hA.u0
  have w0 := hA.w0
  have uw := hA.uw
  have η0 : 0 ≤ η := (abs_nonneg _).trans h1
  obtain ⟨z, hz⟩ : ∃ z, z = η + w + a := ⟨_, rfl⟩
  obtain ⟨g, hg⟩ : ∃ g, g = c * b ^ 10 := ⟨_, rfl⟩
  rw [← hz, ← hg] at hη ⊢
  have z0 : 0 ≤ z := by linarith
  have pb : ∀ n ≤ 10, 1 ≤ b ^ n ∧ b ^ n ≤ b ^ 10 := fun n hn => ⟨one_le_pow₀ hb, pow_le_pow_right₀ hb hn⟩
  have b10 := pb 10 le_rfl
  have bg : ∀ n ≤ 10, b ^ n ≤ g ∧ c * b ^ n ≤ g := fun n hn => by
    have k1 := pb n hn
    have k2 : c * b ^ n ≤ g := by rw [hg]; exact mul_le_mul_of_nonneg_left k1.2 c0.le
    exact ⟨le_trans (le_mul_of_one_le_left (by linarith) hc) k2, k2⟩
  have g1 : 1 ≤ g := b10.1.trans (bg 10 le_rfl).1
  have g0 : 0 ≤ g := by linarith
  obtain ⟨y, hy⟩ : ∃ y, y = g * z := ⟨_, rfl⟩
  have hη' : 10 ^ 8 * y ≤ 1 := by rw [hy, ← mul_assoc]; exact hη
  have y0 : 0 ≤ y := by rw [hy]; positivity
  have zy : z ≤ y := by rw [hy]; exact le_mul_of_one_le_left z0 g1
  have by_ : ∀ n ≤ 10, ∀ t, 0 ≤ t → t ≤ z → b ^ n * t ≤ y ∧ c * b ^ n * t ≤ y := fun n hn t t0 tz => by
    rw [hy]
    exact ⟨mul_le_mul (bg n hn).1 tz t0 g0, mul_le_mul (bg n hn).2 tz t0 g0⟩
  have egoal : 10 ^ 8 * g * z = 10 ^ 8 * y := by rw [hy]; ring
  rw [egoal]
  -- the factor
  have γb : |β / α| ≤ b ^ 2 := by
    rw [div_eq_mul_inv, abs_mul, pow_two]
    exact mul_le_mul hβb hαi (abs_nonneg _) b0.le
  have γb' : |(β / α)⁻¹| ≤ b ^ 2 := by
    rw [inv_div, div_eq_mul_inv, abs_mul, pow_two]
    exact mul_le_mul hαb hβi (abs_nonneg _) b0.le
  have k1 := (by_ 0 (by norm_num) η η0 (by linarith)).2
  have k2 := (by_ 2 (by norm_num) u u0 (by linarith)).2
  have k3 := (by_ 4 (by norm_num) u u0 (by linarith)).1
  rw [pow_zero, mul_one] at k1
  obtain ⟨t, ht, t1⟩ := factor_fl hA hc hb hα hβ hαb γb γb' l1 l2 r1 r2 h1 h2 h3 h4 hs (by linarith only [k1, k2, hη', y0])
  have t1 : |t - 1| ≤ 26 * y := t1.trans (by linarith only [k1, k2, k3])
  have t1' := abs_le.mp t1
  have tl : |t| ≤ 2 := by rw [abs_le]; constructor <;> linarith
  have s2 : |(matchFactor yl yr).val| ≤ 2 * b ^ 2 := by
    rw [ht, abs_mul]
    calc _ ≤ b ^ 2 * 2 := mul_le_mul γb tl (abs_nonneg _) (by positivity)
      _ = _ := by ring
  have bb : b ≤ 2 * b ^ 2 := by nlinarith
  -- the squared norm
  have sn := squaredNorm_fl hA (yl := yl) (yr := yr) (B := 2 * b ^ 2) (by linarith) (l1.trans bb) (l2.trans bb) (l3.trans bb) (l4.trans bb) (r1.trans bb) (r2.trans bb) (r3.trans bb) (r4.trans bb) s2
  obtain ⟨N, hN⟩ : ∃ N, N = (yl.yE.val * yl.dy.val - yl.dyE.val * yl.y.val) - (matchFactor yl yr).val ^ 2 * (yr.yE.val * yr.dy.val - yr.dyE.val * yr.y.val) := ⟨_, rfl⟩
  rw [← hN] at sn
  obtain ⟨N', hN'⟩ : ∃ N', N' = (squaredNorm yl yr).val := ⟨_, rfl⟩
  rw [← hN'] at sn
  obtain ⟨X, hX⟩ : ∃ X, X = α ^ 2 * (yl.yE.val * yl.dy.val - yl.dyE.val * yl.y.val) := ⟨_, rfl⟩
  obtain ⟨Z, hZ⟩ : ∃ Z, Z = β ^ 2 * (yr.yE.val * yr.dy.val - yr.dyE.val * yr.y.val) := ⟨_, rfl⟩
  rw [← hX] at h5
  rw [← hZ] at h6
  have eN : α ^ 2 * N = X - t ^ 2 * Z := by
    rw [hN, hX, hZ, ht]; field_simp
  have t2 : |t ^ 2 - 1| ≤ 78 * y := by
    rw [show t ^ 2 - 1 = (t - 1) * (t + 1) by ring, abs_mul]
    have : |t + 1| ≤ 3 := (abs_add_le _ _).trans (by rw [abs_one]; linarith)
    calc _ ≤ 26 * y * 3 := mul_le_mul t1 this (abs_nonneg _) (by positivity)
      _ = _ := by ring
  have t4 : t ^ 2 ≤ 4 := by rw [← sq_abs]; nlinarith [abs_nonneg t]
  have ηy : η ≤ y := by linarith
  have ν1 : |α ^ 2 * N - 1| ≤ 83 * y := by
    have e : α ^ 2 * N - 1 = (X - A) - t ^ 2 * (Z + B) + (t ^ 2 - 1) * B := by rw [eN]; linear_combination hAB
    rw [e]
    have b1 : |t ^ 2 * (Z + B)| ≤ 4 * η := by
      rw [abs_mul, abs_of_nonneg (sq_nonneg t)]
      exact mul_le_mul t4 h6 (abs_nonneg _) (by norm_num)
    have b2 : |(t ^ 2 - 1) * B| ≤ 78 * y := by
      rw [abs_mul, abs_of_nonneg hB0]
      calc _ ≤ 78 * y * 1 := mul_le_mul t2 (by linarith) hB0 (by positivity)
        _ = _ := by ring
    have b3 := abs_add_le ((X - A) - t ^ 2 * (Z + B)) ((t ^ 2 - 1) * B)
    have b4 := abs_sub (X - A) (t ^ 2 * (Z + B))
    linarith
  have ν2 : |α ^ 2 * N' - 1| ≤ 1000000 * y := by
    have e : α ^ 2 * N' - 1 = α ^ 2 * (N' - N) + (α ^ 2 * N - 1) := by ring
    rw [e]
    refine (abs_add_le _ _).trans ?_
    rw [abs_mul, abs_of_nonneg (sq_nonneg α)]
    have a2 : α ^ 2 ≤ b ^ 2 := by rw [← sq_abs]; exact pow_le_pow_left₀ (abs_nonneg _) hαb 2
    have m := mul_le_mul a2 sn (abs_nonneg _) (by positivity)
    have k := (by_ 10 le_rfl w w0 (by linarith)).1
    linarith only [m, ν1, k, y0, (by ring : b ^ 2 * (60000 * (2 * b ^ 2) ^ 4 * w) = 960000 * (b ^ 10 * w))]
  obtain ⟨ν0, k4, k5⟩ := inv_sqrt_near (by linarith) ν2
  have hN0 : 0 < N' := by
    have := sq_nonneg α
    by_contra h
    have := mul_nonneg_of_nonpos_of_nonpos (show -(α ^ 2) ≤ 0 by linarith) (not_lt.mp h)
    linarith
  have hnorm : normOf sqrt yl yr = sqrt (squaredNorm yl yr) := by
    unfold normOf
    rw [if_pos]
    simp only [Fl.lt_def, Fl.zero_val, decide_eq_true_eq]
    rw [← hN']; exact hN0
  have rt := hsq (squaredNorm yl yr) (by rw [← hN']; exact hN0)
  rw [← hN'] at rt
  obtain ⟨n, hn⟩ : ∃ n, n = (sqrt (squaredNorm yl yr)).val := ⟨_, rfl⟩
  rw [← hn] at rt
  have sN : 0 < Real.sqrt N' := Real.sqrt_pos.mpr hN0
  have sb : 1 ≤ 2 * b * Real.sqrt N' := by
    have e : Real.sqrt (α ^ 2 * N') = |α| * Real.sqrt N' := by rw [Real.sqrt_mul (sq_nonneg α), Real.sqrt_sq_eq_abs]
    have q : (1 / 2 : ℝ) ≤ Real.sqrt (α ^ 2 * N') := Real.le_sqrt_of_sq_le (by have := abs_le.mp ν2; linarith)
    rw [e] at q
    have := mul_le_mul_of_nonneg_right hαb sN.le
    linarith
  have mx : max (Real.sqrt N') mu ≤ 2 * b * Real.sqrt N' := by
    refine max_le (le_mul_of_one_le_left sN.le (by linarith)) ?_
    have := hA.mu1
    linarith
  obtain ⟨a', ha'd⟩ : ∃ a', a' = 2 * (b * a) := ⟨_, rfl⟩
  have ha'0 : 0 ≤ a' := by rw [ha'd]; positivity
  have ay' : a' ≤ 2 * y := by
    have := (by_ 1 (by norm_num) a ha (by linarith)).1
    rw [pow_one] at this
    rw [ha'd]; linarith
  replace rt : |n - Real.sqrt N'| ≤ a' * Real.sqrt N' := by
    refine rt.trans ((mul_le_mul_of_nonneg_left mx ha).trans (le_of_eq ?_))
    rw [ha'd]; ring
  have a4 : a' ≤ 1 / 4 := by linarith
  have rt' := abs_le.mp rt
  have aS : a' * Real.sqrt N' ≤ 1 / 4 * Real.sqrt N' := mul_le_mul_of_nonneg_right a4 sN.le
  have n0 : 0 < n := by linarith
  obtain ⟨ρ, hρ⟩ : ∃ ρ, ρ = Real.sqrt N' / n := ⟨_, rfl⟩
  have ρ1 : |ρ - 1| ≤ 2 * a' := by
    have e : ρ - 1 = (Real.sqrt N' - n) / n := by rw [hρ]; field_simp
    rw [e, abs_div, abs_of_pos n0, div_le_iff₀ n0, abs_sub_comm]
    refine rt.trans ?_
    have : Real.sqrt N' ≤ 2 * n := by linarith
    have := mul_le_mul_of_nonneg_left this ha'0
    linarith
  have ρ1' := abs_le.mp ρ1
  have es : Real.sqrt (α ^ 2 * N') = |α| * Real.sqrt N' := by rw [Real.sqrt_mul (sq_nonneg α), Real.sqrt_sq_eq_abs]
  obtain ⟨ς, hς, hςα⟩ : ∃ ς : ℝ, (ς = 1 ∨ ς = -1) ∧ |α| = ς * α := by
    rcases abs_choice α with h | h
    · exact ⟨1, .inl rfl, by rw [h]; ring⟩
    · exact ⟨-1, .inr rfl, by rw [h]; ring⟩
  have ς2 : ς * ς = 1 := by rcases hς with h | h <;> rw [h] <;> norm_num
  have ς0 : ς ≠ 0 := by rcases hς with h | h <;> rw [h] <;> norm_num
  have aς : |ς| = 1 := by rcases hς with h | h <;> rw [h] <;> simp
  obtain ⟨k, hk⟩ : ∃ k, k = 1 / Real.sqrt (α ^ 2 * N') := ⟨_, rfl⟩
  rw [← hk] at k4 k5
  have ek : 1 / Real.sqrt N' = ς * α * k := by
    rw [hk, es, hςα]; field_simp
  obtain ⟨k0, hk0⟩ : ∃ k0, k0 = k * ρ := ⟨_, rfl⟩
  have ek0 : 1 / n = ς * α * k0 := by
    have : 1 / n = 1 / Real.sqrt N' * ρ := by rw [hρ]; field_simp
    rw [this, ek, hk0]; ring
  have dk0 : |k0 - 1| ≤ 5000000 * y := by
    have e : k0 - 1 = (k - 1) * ρ + (ρ - 1) := by rw [hk0]; ring
    rw [e]
    refine (abs_add_le _ _).trans ?_
    rw [abs_mul]
    have : |ρ| ≤ 2 := by rw [abs_le]; constructor <;> linarith
    have m := mul_le_mul k4 this (abs_nonneg _) (by positivity)
    linarith
  have dk0' := abs_le.mp dk0
  have ak0 : |k0| ≤ 2 := by rw [abs_le]; constructor <;> linarith
  have γs : ∀ γ : ℝ, γ ≠ 0 → |γ| ≤ b → |γ⁻¹| ≤ b → ς * γ ≠ 0 ∧ |ς * γ| ≤ b ∧ |(ς * γ)⁻¹| ≤ b := fun γ h1 h2 h3 => by
    refine ⟨mul_ne_zero ς0 h1, by rwa [abs_mul, aς, one_mul], ?_⟩
    rw [mul_inv, abs_mul, abs_inv, aς, inv_one, one_mul]; exact h3
  have k6 := (by_ 2 (by norm_num) u u0 (by linarith)).1
  have uy : u ≤ y := by linarith
  have u8 : u ≤ 1 := by linarith
  -- the left factor
  have l1' : |fl ((1 : ℚ) : ℝ) - 1| ≤ u := by
    have := hA.r.err ((1 : ℚ) : ℝ)
    rw [Rat.cast_one, abs_one, max_eq_left hA.mu1, mul_one] at this
    rw [Rat.cast_one]; exact this
  obtain ⟨o, ho⟩ : ∃ o, o = fl ((1 : ℚ) : ℝ) := ⟨_, rfl⟩
  rw [← ho] at l1'
  have l1'' := abs_le.mp l1'
  have ao : |o| ≤ 2 := by rw [abs_le]; constructor <;> linarith
  obtain ⟨γ0, γ1, γ2⟩ := γs α hα hαb hαi
  obtain ⟨δ0, δ1, δ2⟩ := γs β hβ hβb hβi
  obtain ⟨kL, eL, dL⟩ := quot_fl hA (x := o) (y := n) (γ := ς * α) (t := o * k0) hb γ0 γ1 γ2 (by
    rw [abs_mul]
    have := mul_le_mul ao ak0 (abs_nonneg _) (by norm_num)
    linarith) (by rw [show o / n = o * (1 / n) by ring, ek0]; ring)
  obtain ⟨kR, eR, dR⟩ := quot_fl hA (x := (matchFactor yl yr).val) (y := n) (γ := ς * β) (t := t * k0) hb δ0 δ1 δ2 (by
    rw [abs_mul]
    have := mul_le_mul tl ak0 (abs_nonneg _) (by norm_num)
    linarith) (by
      rw [show (matchFactor yl yr).val / n = (matchFactor yl yr).val * (1 / n) by ring, ek0, ht]; field_simp)
  refine ⟨ς, kL, kR, hς, ?_, ?_, ?_, ?_⟩
  · rw [hnorm, ← eL, ho, hn]; rfl
  · rw [hnorm, ← eR, hn]; rfl
  · have e : o * k0 - 1 = o * (k0 - 1) + (o - 1) := by ring
    have m : |o * k0 - 1| ≤ 2 * (5000000 * y) + u := by
      rw [e]
      refine (abs_add_le _ _).trans ?_
      rw [abs_mul]
      exact add_le_add (mul_le_mul ao dk0 (abs_nonneg _) (by norm_num)) l1'
    have := abs_sub_le kL (o * k0) 1
    linarith
  · have e : t * k0 - 1 = t * (k0 - 1) + (t - 1) := by ring
    have m : |t * k0 - 1| ≤ 2 * (5000000 * y) + 26 * y := by
      rw [e]
      refine (abs_add_le _ _).trans ?_
      rw [abs_mul]
      exact add_le_add (mul_le_mul tl dk0 (abs_nonneg _) (by norm_num)) t1
    have := abs_sub_le kR (t * k0) 1
    linarith

end Verif.Fp
