import Verif.Lemmas.ExactCount
import Mathlib.Analysis.Calculus.MeanValue
import Mathlib.Analysis.SpecialFunctions.Trigonometric.ArctanDeriv

/-!
# The angle of a solution: its derivative, and what a bound on the potential says about it
-/
namespace Verif.Solver
open Verif Verif.Prufer Verif.Mesh Verif.Spec
open Real (pi)
open scoped Topology

/-- Near a point the angle is the angle at that point plus an arctangent. -/
theorem angle_local {sc : ℝ} {y dy Θ : ℝ → ℝ} {x x' : ℝ} (h0 : IsAngle (Θ x) (sc * y x) (dy x)) (h1 : IsAngle (Θ x') (sc * y x') (dy x'))
    (hd : 0 < sc * y x * (sc * y x') + dy x * dy x') (hn : |Θ x' - Θ x| < pi / 2) :
    Θ x' = Θ x + Real.arctan ((sc * y x' * dy x - sc * y x * dy x') / (sc * y x * (sc * y x') + dy x * dy x')) := by
  obtain ⟨ρ, a1, a2⟩ := h0.rep
  obtain ⟨σ, b1, b2⟩ := h1.rep
  rw [abs_lt] at hn
  have e1 : sc * y x' * dy x - sc * y x * dy x' = σ * ρ * Real.sin (Θ x' - Θ x) := by rw [a1, a2, b1, b2, Real.sin_sub]; ring
  have e2 : sc * y x * (sc * y x') + dy x * dy x' = σ * ρ * Real.cos (Θ x' - Θ x) := by rw [a1, a2, b1, b2, Real.cos_sub]; ring
  rw [e2] at hd
  rw [e1, e2, mul_div_mul_left _ _ (fun h => by rw [h, zero_mul] at hd; exact lt_irrefl _ hd), ← Real.tan_eq_sin_div_cos,
    Real.arctan_tan (by linarith [hn.1]) hn.2]
  ring

theorem angle_deriv {S : Set ℝ} {sc q : ℝ} {y dy Θ : ℝ → ℝ} {x : ℝ} (hx : x ∈ S) (hs : 0 < sc) (hΘ : ContinuousWithinAt Θ S x)
    (ha : ∀ t ∈ S, IsAngle (Θ t) (sc * y t) (dy t)) (hy : HasDerivWithinAt y (dy x) S x) (hdy : HasDerivWithinAt dy (-(q * y x)) S x)
    (hne : ¬ (y x = 0 ∧ dy x = 0)) :
    HasDerivWithinAt Θ (sc * (dy x ^ 2 + q * y x ^ 2) / (sc ^ 2 * y x ^ 2 + dy x ^ 2)) S x := by
  have hpos : 0 < sc ^ 2 * y x ^ 2 + dy x ^ 2 := by
    by_cases h : y x = 0
    · have := sq_pos_of_ne_zero (fun h' => hne ⟨h, h'⟩)
      rw [h]; linarith
    · have := mul_pos (sq_pos_of_ne_zero hs.ne') (sq_pos_of_ne_zero h)
      have := sq_nonneg (dy x)
      linarith
  set cr : ℝ → ℝ := fun t => sc * y t * dy x - sc * y x * dy t with hcr
  set dt : ℝ → ℝ := fun t => sc * y x * (sc * y t) + dy x * dy t with hdt
  have d0 : dt x = sc ^ 2 * y x ^ 2 + dy x ^ 2 := by simp only [hdt]; ring
  have c0 : cr x = 0 := by simp only [hcr]; ring
  have hcr' : HasDerivWithinAt cr (sc * dy x * dy x - sc * y x * (-(q * y x))) S x :=
    ((hy.const_mul sc).mul_const (dy x)).sub (hdy.const_mul (sc * y x))
  have hdt' : HasDerivWithinAt dt (sc * y x * (sc * dy x) + dy x * (-(q * y x))) S x :=
    ((hy.const_mul sc).const_mul (sc * y x)).add (hdy.const_mul (dy x))
  have hq := hcr'.div hdt' (by rw [d0]; exact hpos.ne')
  have ht := (hq.arctan).const_add (Θ x)
  have hev : Θ =ᶠ[𝓝[S] x] fun t => Θ x + Real.arctan (cr t / dt t) := by
    have e1 : ∀ᶠ t in 𝓝[S] x, 0 < dt t := hdt'.continuousWithinAt.eventually (lt_mem_nhds (by rw [d0]; exact hpos))
    have e2 : ∀ᶠ t in 𝓝[S] x, |Θ t - Θ x| < pi / 2 := by
      have : Filter.Tendsto (fun t => |Θ t - Θ x|) (𝓝[S] x) (𝓝 |Θ x - Θ x|) := (hΘ.sub_const (Θ x) : Filter.Tendsto _ _ _).abs
      rw [sub_self, abs_zero] at this
      exact this.eventually (gt_mem_nhds (by linarith [Real.pi_pos]))
    filter_upwards [e1, e2, self_mem_nhdsWithin] with t h1 h2 h3
    exact angle_local (ha x hx) (ha t h3) h1 h2
  refine (ht.congr_of_eventuallyEq hev (by simp only [Pi.div_apply, c0, zero_div, Real.arctan_zero, add_zero])).congr_deriv ?_
  simp only [Pi.div_apply]
  rw [c0, d0]
  have := hpos.ne'
  field_simp
  ring

/-- A sector to the right of each point. -/
theorem chn_at : ∀ {l : List (Sec ℝ)} {a b x : ℝ}, Chn a l b → a ≤ x → x < b → ∃ s ∈ l, s.min ≤ x ∧ x < s.max
  | [], a, b, x, h, h1, h2 => by
    simp only [Chn] at h; linarith
  | s :: l, a, b, x, h, h1, h2 => by
    by_cases hx : x < s.max
    · exact ⟨s, by simp, by rw [h.1]; exact h1, hx⟩
    · obtain ⟨t, ht, q⟩ := chn_at h.2 (not_lt.mp hx) h2
      exact ⟨t, List.mem_cons_of_mem _ ht, q⟩

/-- The angle of a solution has a right derivative, `sc (y'² + (E - V) y²) / (sc² y² + y'²)`. -/
theorem mesh_angle_deriv {W : Sec ℝ → ℝ → ℝ} {E a b sc : ℝ} {l : List (Sec ℝ)} {y dy Θ : ℝ → ℝ} (hc : Chn a l b) (hp : ∀ s ∈ l, s.min < s.max) (hs : 0 < sc)
    (hy : SolvesMesh W E l y dy) (hne : ∀ x ∈ Set.Icc a b, ¬ (y x = 0 ∧ dy x = 0)) (hΘ : ContAngle a b sc y dy Θ) {x : ℝ} (h1 : a ≤ x) (h2 : x < b) :
    ∃ s ∈ l, s.min ≤ x ∧ x < s.max ∧ HasDerivWithinAt Θ (sc * (dy x ^ 2 + (E - W s x) * y x ^ 2) / (sc ^ 2 * y x ^ 2 + dy x ^ 2)) (Set.Ici x) x := by
  obtain ⟨s, hs', g1, g2⟩ := chn_at hc h1 h2
  obtain ⟨-, hr⟩ := chn_range hc hp
  obtain ⟨r1, r2⟩ := hr s hs'
  refine ⟨s, hs', g1, g2, ?_⟩
  have hsub : Set.Icc x s.max ⊆ Set.Icc s.min s.max := Set.Icc_subset_Icc g1 le_rfl
  have hsub' : Set.Icc x s.max ⊆ Set.Icc a b := Set.Icc_subset_Icc h1 r2
  have hx : x ∈ Set.Icc x s.max := ⟨le_rfl, g2.le⟩
  have hd := angle_deriv (q := E - W s x) hx hs ((hΘ.cont x (hsub' hx)).mono hsub') (fun t ht => hΘ.angle t (hsub' ht)) (((hy s hs').d1 x (hsub hx)).mono hsub)
    ((((hy s hs').d2 x (hsub hx)).mono hsub).congr_deriv (by ring)) (hne x (hsub' hx))
  exact hd.mono_of_mem_nhdsWithin (Icc_mem_nhdsGE g2)

/-- Where `E - V ≥ ω²` the angle with scale `ω` turns at least with speed `ω`. -/
theorem angle_fast {W : Sec ℝ → ℝ → ℝ} {E a b ω v : ℝ} {l : List (Sec ℝ)} {y dy Θ : ℝ → ℝ} (hc : Chn a l b) (hp : ∀ s ∈ l, s.min < s.max) (hs : 0 < ω) (hab : a ≤ b)
    (hy : SolvesMesh W E l y dy) (hne : ∀ x ∈ Set.Icc a b, ¬ (y x = 0 ∧ dy x = 0)) (hΘ : ContAngle a b ω y dy Θ)
    (hv : ∀ s ∈ l, ∀ x ∈ Set.Icc s.min s.max, W s x ≤ v) (hE : v + ω ^ 2 ≤ E) : Θ a + ω * (b - a) ≤ Θ b := by
  have key : ∀ x : ℝ, ∃ g : ℝ, x ∈ Set.Ico a b → HasDerivWithinAt Θ g (Set.Ici x) x ∧ ω ≤ g := by
    intro x
    by_cases hx : x ∈ Set.Ico a b
    · obtain ⟨s, hs', g1, g2, g3⟩ := mesh_angle_deriv hc hp hs hy hne hΘ hx.1 hx.2
      refine ⟨_, fun _ => ⟨g3, ?_⟩⟩
      have hn := hne x ⟨hx.1, hx.2.le⟩
      have hpos : 0 < ω ^ 2 * y x ^ 2 + dy x ^ 2 := by
        by_cases h : y x = 0
        · have := sq_pos_of_ne_zero (fun h' => hn ⟨h, h'⟩)
          rw [h]; linarith
        · have := mul_pos (sq_pos_of_ne_zero hs.ne') (sq_pos_of_ne_zero h)
          have := sq_nonneg (dy x)
          linarith
      rw [le_div_iff₀ hpos]
      refine mul_le_mul_of_nonneg_left ?_ hs.le
      have := mul_le_mul_of_nonneg_right (show ω ^ 2 ≤ E - W s x by have := hv s hs' x ⟨g1, g2.le⟩; linarith) (sq_nonneg (y x))
      linarith
    · exact ⟨0, fun h => absurd h hx⟩
  choose g hg using key
  have := image_le_of_deriv_right_le_deriv_boundary (f := fun x => -Θ x) (f' := fun x => -g x) (a := a) (b := b) hΘ.cont.neg (fun x hx => (hg x hx).1.neg)
    (B := fun x => -Θ a - ω * (x - a)) (B' := fun _ => -ω) (by simp) (by fun_prop)
    (fun x _ => ((((hasDerivAt_id x).sub_const a).const_mul ω).const_sub (-Θ a)).hasDerivWithinAt.congr_deriv (by simp))
    (fun x hx => neg_le_neg (hg x hx).2) (Set.right_mem_Icc.mpr hab)
  linarith

/-- Where `E - V ≤ ω²` the angle with scale `ω` turns at most with speed `ω`. -/
theorem angle_atMost {W : Sec ℝ → ℝ → ℝ} {E a b ω v : ℝ} {l : List (Sec ℝ)} {y dy Θ : ℝ → ℝ} (hc : Chn a l b) (hp : ∀ s ∈ l, s.min < s.max) (hs : 0 < ω) (hab : a ≤ b)
    (hy : SolvesMesh W E l y dy) (hne : ∀ x ∈ Set.Icc a b, ¬ (y x = 0 ∧ dy x = 0)) (hΘ : ContAngle a b ω y dy Θ)
    (hv : ∀ s ∈ l, ∀ x ∈ Set.Icc s.min s.max, v ≤ W s x) (hE : E ≤ v + ω ^ 2) : Θ b ≤ Θ a + ω * (b - a) := by
  have key : ∀ x : ℝ, ∃ g : ℝ, x ∈ Set.Ico a b → HasDerivWithinAt Θ g (Set.Ici x) x ∧ g ≤ ω := by
    intro x
    by_cases hx : x ∈ Set.Ico a b
    · obtain ⟨s, hs', g1, g2, g3⟩ := mesh_angle_deriv hc hp hs hy hne hΘ hx.1 hx.2
      refine ⟨_, fun _ => ⟨g3, ?_⟩⟩
      have hn := hne x ⟨hx.1, hx.2.le⟩
      have hpos : 0 < ω ^ 2 * y x ^ 2 + dy x ^ 2 := by
        by_cases h : y x = 0
        · have := sq_pos_of_ne_zero (fun h' => hn ⟨h, h'⟩)
          rw [h]; linarith
        · have := mul_pos (sq_pos_of_ne_zero hs.ne') (sq_pos_of_ne_zero h)
          have := sq_nonneg (dy x)
          linarith
      rw [div_le_iff₀ hpos]
      refine mul_le_mul_of_nonneg_left ?_ hs.le
      have := mul_le_mul_of_nonneg_right (show E - W s x ≤ ω ^ 2 by have := hv s hs' x ⟨g1, g2.le⟩; linarith) (sq_nonneg (y x))
      linarith
    · exact ⟨0, fun h => absurd h hx⟩
  choose g hg using key
  have := image_le_of_deriv_right_le_deriv_boundary (f := Θ) (f' := g) (a := a) (b := b) hΘ.cont (fun x hx => (hg x hx).1)
    (B := fun x => Θ a + ω * (x - a)) (B' := fun _ => ω) (by simp) (by fun_prop)
    (fun x _ => ((((hasDerivAt_id x).sub_const a).const_mul ω).const_add (Θ a)).hasDerivWithinAt.congr_deriv (by simp))
    (fun x hx => (hg x hx).2) (Set.right_mem_Icc.mpr hab)
  linarith

/-- Where `V - E` is large the angle cannot stay above `π/4`. -/
theorem angle_slow {W : Sec ℝ → ℝ → ℝ} {E a b m v : ℝ} {l : List (Sec ℝ)} {y dy Θ : ℝ → ℝ} (hc : Chn a l b) (hp : ∀ s ∈ l, s.min < s.max) (hs : 0 < m) (hab : a < b)
    (hy : SolvesMesh W E l y dy) (hne : ∀ x ∈ Set.Icc a b, ¬ (y x = 0 ∧ dy x = 0)) (hΘ : ContAngle a b m y dy Θ)
    (hv : ∀ s ∈ l, ∀ x ∈ Set.Icc s.min s.max, v ≤ W s x) (hE : E < v - (m ^ 2 + pi * m / (b - a))) (h0 : Θ a ≤ 3 * pi / 4) : Θ b ≤ pi / 4 := by
  have hL : 0 < b - a := by linarith
  set c := pi / 2 / (b - a) with hcd
  have hc0 : 0 < c := by have := Real.pi_pos; positivity
  have key : ∀ x : ℝ, ∃ g : ℝ, x ∈ Set.Ico a b → HasDerivWithinAt Θ g (Set.Ici x) x ∧ (Θ x = 3 * pi / 4 - c * (x - a) → g < -c) := by
    intro x
    by_cases hx : x ∈ Set.Ico a b
    · obtain ⟨s, hs', g1, g2, g3⟩ := mesh_angle_deriv hc hp hs hy hne hΘ hx.1 hx.2
      refine ⟨_, fun _ => ⟨g3, fun hB => ?_⟩⟩
      have hn := hne x ⟨hx.1, hx.2.le⟩
      have hpos : 0 < m ^ 2 * y x ^ 2 + dy x ^ 2 := by
        by_cases h : y x = 0
        · have := sq_pos_of_ne_zero (fun h' => hn ⟨h, h'⟩)
          rw [h]; linarith
        · have := mul_pos (sq_pos_of_ne_zero hs.ne') (sq_pos_of_ne_zero h)
          have := sq_nonneg (dy x)
          linarith
      -- the angle is between π/4 and 3π/4, hence `dy² ≤ m² y²`
      have hcx : 0 ≤ c * (x - a) := mul_nonneg hc0.le (by linarith [hx.1])
      have hcx' : c * (x - a) ≤ pi / 2 := by
        rw [hcd, div_mul_eq_mul_div, div_le_iff₀ hL]
        exact mul_le_mul_of_nonneg_left (by linarith [hx.2]) (by linarith [Real.pi_pos])
      have hcos : Real.cos (2 * Θ x) ≤ 0 := Real.cos_nonpos_of_pi_div_two_le_of_le (by linarith) (by linarith)
      obtain ⟨ρ, e1, e2⟩ := (hΘ.angle x ⟨hx.1, hx.2.le⟩).rep
      have hle : dy x ^ 2 ≤ m ^ 2 * y x ^ 2 := by
        rw [Real.cos_two_mul'] at hcos
        have : dy x ^ 2 - m ^ 2 * y x ^ 2 = ρ ^ 2 * (Real.cos (Θ x) ^ 2 - Real.sin (Θ x) ^ 2) := by
          rw [← mul_pow, e1, e2]; ring
        have := mul_nonneg (sq_nonneg ρ) (neg_nonneg.mpr hcos)
        linarith
      have hy0 : 0 < y x ^ 2 := by
        refine sq_pos_of_ne_zero (fun h => hn ⟨h, ?_⟩)
        rw [h] at hle
        have := sq_nonneg (dy x)
        exact pow_eq_zero_iff (two_ne_zero) |>.mp (by linarith)
      rw [div_lt_iff₀ hpos]
      have hw := hv s hs' x ⟨g1, g2.le⟩
      -- `m (dy² - q y²) + c (m² y² + dy²) < 0` with `q > m² + 2 c m`
      have hq : m ^ 2 + 2 * c * m < W s x - E := by
        have : 2 * c * m = pi * m / (b - a) := by rw [hcd]; field_simp
        linarith
      have t1 : m * (W s x - E) * y x ^ 2 > m * (m ^ 2 + 2 * c * m) * y x ^ 2 :=
        mul_lt_mul_of_pos_right (mul_lt_mul_of_pos_left hq hs) hy0
      have t2 : (m + c) * dy x ^ 2 ≤ (m + c) * (m ^ 2 * y x ^ 2) := mul_le_mul_of_nonneg_left hle (by linarith)
      nlinarith only [t1, t2]
    · exact ⟨0, fun h => absurd h hx⟩
  choose g hg using key
  have := image_le_of_deriv_right_lt_deriv_boundary (f := Θ) (f' := g) (a := a) (b := b) hΘ.cont (fun x hx => (hg x hx).1)
    (B := fun x => 3 * pi / 4 - c * (x - a)) (B' := fun _ => -c) (by simpa using h0)
    (fun x => ((((hasDerivAt_id x).sub_const a).const_mul c).const_sub (3 * pi / 4)).congr_deriv (by simp))
    (fun x hx h => (hg x hx).2 h) (Set.right_mem_Icc.mpr hab.le)
  have e : c * (b - a) = pi / 2 := by rw [hcd]; field_simp
  linarith

end Verif.Solver
