import Verif.Lemmas.AngleSector
import Verif.Lemmas.Chain
import Verif.Lemmas.Zeros

/-!
# Convergence of the angle along the visited sectors
-/
namespace Verif.Solver
open Verif Verif.Prufer Verif.YT Verif.CalcT Verif.Mesh Verif.Propag Verif.Formulas Verif.Legendre
open Real (pi)

variable {V : ℝ → ℝ} {E F K S a b : ℝ} {z dz : ℝ → ℝ}

/-- A multiple of π smaller than π is zero. -/
theorem int_pi_zero {m : ℤ} (h : |(m : ℝ) * pi| < pi) : m = 0 := by
  have hp := Real.pi_pos
  rw [abs_lt] at h
  have h1 : (-1 : ℝ) < m := by by_contra hc; push Not at hc; nlinarith
  have h2 : (m : ℝ) < 1 := by by_contra hc; push Not at hc; nlinarith
  have h1' : -1 < m := by exact_mod_cast h1
  have h2' : m < 1 := by exact_mod_cast h2
  omega

/-- A continuous function from 0 that stays near the multiples of π stays near 0. -/
theorem cont_small {f : ℝ → ℝ} {c : ℝ} (hab : a ≤ b) (hf : ContinuousOn f (Set.Icc a b)) (h0 : f a = 0)
    (hc : c ≤ 1 / 4) (h : ∀ x ∈ Set.Icc a b, ∃ m : ℤ, |f x - m * pi| ≤ c) : |f b| ≤ c := by
  have hp := Real.pi_gt_three
  have no : ∀ x ∈ Set.Icc a b, f x ≠ 1 ∧ f x ≠ -1 := by
    intro x hx
    obtain ⟨m, hm⟩ := h x hx
    constructor
    · intro h1
      rw [h1, abs_le] at hm
      have : m = 0 := int_pi_zero (by rw [abs_lt]; constructor <;> linarith [hm.1, hm.2])
      rw [this] at hm
      push_cast at hm
      linarith [hm.2]
    · intro h1
      rw [h1, abs_le] at hm
      have : m = 0 := int_pi_zero (by rw [abs_lt]; constructor <;> linarith [hm.1, hm.2])
      rw [this] at hm
      push_cast at hm
      linarith [hm.1]
  have hb1 : f b < 1 := by
    by_contra hc'
    push Not at hc'
    obtain ⟨x, hx, e⟩ := intermediate_value_Icc hab hf (show (1 : ℝ) ∈ Set.Icc (f a) (f b) from ⟨by rw [h0]; norm_num, hc'⟩)
    exact (no x hx).1 e
  have hb2 : -1 < f b := by
    by_contra hc'
    push Not at hc'
    obtain ⟨x, hx, e⟩ := intermediate_value_Icc' hab hf (show (-1 : ℝ) ∈ Set.Icc (f b) (f a) from ⟨hc', by rw [h0]; norm_num⟩)
    exact (no x hx).2 e
  obtain ⟨m, hm⟩ := h b ⟨hab, le_rfl⟩
  rw [abs_le] at hm
  have : m = 0 := int_pi_zero (by rw [abs_lt]; constructor <;> linarith [hm.1, hm.2])
  rw [this] at hm
  push_cast at hm
  rw [abs_le]
  constructor <;> linarith [hm.1, hm.2]

/-- Angles of near directions. -/
theorem near_angle {sc ρ θ Θ : ℝ} {u w : ℝ × ℝ} (hsc : 1 ≤ sc) (hS : sc ^ 2 ≤ S) (hw : 0 < sz w) (hθ : IsAngle θ (sc * u.1) u.2)
    (hΘ : IsAngle Θ (sc * w.1) w.2) (hd : sz (u - w) ≤ ρ * sz w) (hρ : 4 * (S * ρ) ≤ 1) : ∃ m : ℤ, |θ - Θ - m * pi| ≤ 4 * (S * ρ) := by
  obtain ⟨r1, r2⟩ := rot_near (S := S) (u := w.1) (v := w.2) (u' := u.1) (v' := u.2) (m := sz w) (c := ρ) hsc hS hw (le_sz1 w) (le_sz2 w) (sz_eq w)
    ((le_sz1 (u - w)).trans hd) ((le_sz2 (u - w)).trans hd) hρ
  have ha := hΘ.rot r1
  have hne : ¬ (sc * u.1 = 0 ∧ u.2 = 0) := by
    rintro ⟨e1, e2⟩
    rw [e1, e2] at r1; simp at r1
  obtain ⟨k, hk⟩ := ha.unique hθ hne
  refine ⟨k, ?_⟩
  rw [hk]
  convert r2 using 2
  ring

/-- The continuous angle of an exact solution changes little over a short sector. -/
theorem exact_turn (hK : 1 ≤ K) (hq : ∀ x ∈ Set.Icc a b, |V x - E| ≤ K) (hs : SolvesOn V E a b z dz)
    (hS : 1 ≤ S) (h : 128 * (S * (K * (b - a))) ≤ 1) (hab : a ≤ b) (hN : 0 < sz (z a, dz a)) {sc : ℝ} (hsc : 1 ≤ sc) (hsS : sc ^ 2 ≤ S)
    {Θ : ℝ → ℝ} (hΘ : ContAngle a b sc z dz Θ) : |Θ b - Θ a| ≤ 1 / 4 := by
  have hKd : 0 ≤ K * (b - a) := by
    have : 0 ≤ b - a := by linarith
    positivity
  have h1 : 128 * (K * (b - a)) ≤ 1 := by
    have := mul_le_mul_of_nonneg_right hS hKd
    linarith
  have := cont_small (f := fun x => Θ x - Θ a) (c := 4 * (S * (2 * (K * (b - a))))) hab (hΘ.cont.sub continuousOn_const) (sub_self _) (by linarith) (by
    intro x hx
    have f1 := short_first hK hq hs (by linarith) hx
    set N := sz (z a, dz a)
    have ha : a ∈ Set.Icc a b := ⟨le_rfl, hab⟩
    have hx0 : 0 ≤ x - a := by linarith [hx.1]
    have k1 : (x - a) * N ≤ (b - a) * N := mul_le_mul_of_nonneg_right (by linarith [hx.2]) hN.le
    have k2 : (b - a) * N ≤ K * ((b - a) * N) := le_mul_of_one_le_left (mul_nonneg (show 0 ≤ b - a by linarith) hN.le) hK
    have k3 : K * ((x - a) * N) ≤ K * ((b - a) * N) := mul_le_mul_of_nonneg_left k1 (by linarith)
    exact near_angle (u := (z x, dz x)) (w := (z a, dz a)) hsc hsS hN (hΘ.angle x hx) (hΘ.angle a ha) (ρ := 2 * (K * (b - a))) (sz_le (by show |z x - z a| ≤ _; linarith [f1.1]) (by show |dz x - dz a| ≤ _; linarith [f1.2])) (by linarith))
  linarith

/-- A map near the flow at one energy is near the flow at another energy. -/
theorem Near.energy {Sm : ℝ × ℝ → ℝ × ℝ} {x x' e : ℝ} (hn : Near V E a b Sm x x' e) (hV : ContinuousOn V (Set.Icc a b)) (hK : 1 ≤ K)
    (hE : ∀ x ∈ Set.Icc a b, |V x - E| ≤ K) (hF : ∀ x ∈ Set.Icc a b, |V x - F| ≤ K) (hKh : 2 * (K * (b - a)) ≤ 1)
    (hx : x ∈ Set.Icc a b) (hx' : x' ∈ Set.Icc a b) : Near V F a b Sm x x' (e + 4 * |F - E| * |x' - x|) := by
  intro z dz hz
  obtain ⟨y, dy, hy, y1, y2⟩ := exists_solution_at (E := E) hV hx (z x, dz x)
  have n1 := hn y dy hy
  rw [y1, y2] at n1
  set N := sz (z x, dz x)
  have N0 : 0 ≤ N := sz_nonneg _
  have grow : ∀ {G : ℝ} {f df : ℝ → ℝ}, (∀ x ∈ Set.Icc a b, |V x - G| ≤ K) → SolvesOn V G a b f df → ∀ {t u : ℝ}, t ∈ Set.Icc a b → u ∈ Set.Icc a b →
      sz (f u, df u) ≤ 2 * sz (f t, df t) := by
    intro G f df hG hf t u ht hu
    refine (flow_bound hK hG hf ht hu).trans (mul_le_mul_of_nonneg_right (exp_le_two ?_) (sz_nonneg _))
    have : |u - t| ≤ b - a := by rw [abs_le]; constructor <;> linarith [ht.1, ht.2, hu.1, hu.2]
    have := mul_le_mul_of_nonneg_left this (show 0 ≤ K by linarith)
    linarith
  have key : ∀ c : ℝ × ℝ, sz c ≤ 1 → |c.2 * (z x' - y x') - c.1 * (dz x' - dy x')| ≤ 4 * |F - E| * |x' - x| * N := by
    intro c hc
    obtain ⟨w, dw, hw, w1, w2⟩ := exists_solution_at (E := E) hV hx' c
    have d : ∀ t ∈ Set.Icc a b, HasDerivWithinAt (fun t => dw t * (z t - y t) - w t * (dz t - dy t)) ((F - E) * (w t * z t)) (Set.Icc a b) t := by
      intro t ht
      exact (((hw.d2 t ht).fun_mul ((hz.d1 t ht).fun_sub (hy.d1 t ht))).fun_sub ((hw.d1 t ht).fun_mul ((hz.d2 t ht).fun_sub (hy.d2 t ht)))).congr_deriv (by ring)
    have := (convex_Icc a b).norm_image_sub_le_of_norm_hasDerivWithin_le (C := 4 * |F - E| * N) d (by
      intro t ht
      rw [Real.norm_eq_abs, abs_mul, abs_mul]
      have g1 := (le_sz1 (w t, dw t)).trans (grow hE hw hx' ht)
      have g2 := (le_sz1 (z t, dz t)).trans (grow hF hz hx ht)
      rw [w1, w2] at g1
      have g3 : |w t| * |z t| ≤ 2 * (2 * N) := mul_le_mul (g1.trans (by linarith)) g2 (abs_nonneg _) (by norm_num)
      have := mul_le_mul_of_nonneg_left g3 (abs_nonneg (F - E))
      linarith) hx hx'
    rw [Real.norm_eq_abs, Real.norm_eq_abs] at this
    simp only [y1, y2, w1, w2, sub_self, mul_zero, sub_zero] at this
    linarith
  have k1 := key (0, 1) (by simp [sz])
  have k2 := key (1, 0) (by simp [sz])
  have n2 : sz ((y x', dy x') - (z x', dz x')) ≤ 4 * |F - E| * |x' - x| * N := by
    rw [sz_sub_comm]
    refine sz_le ?_ ?_
    · simpa using k1
    · simpa [abs_sub_comm] using k2
  have := sz_tri (Sm (z x, dz x)) (y x', dy x') (z x', dz x')
  linarith

/-- **The chain of angle steps.** -/
theorem angle_chain (hK : 1 ≤ K) (hS : 1 ≤ S) {sc : ℝ} (hsc : 1 ≤ sc) (hsS : sc ^ 2 ≤ S) {y dy Θ : ℝ → ℝ} {step : Y ℝ × ℝ → ℕ → Y ℝ × ℝ} {p q e : ℕ → ℝ} :
    ∀ {l : List ℕ} {x0 x1 : ℝ} (st : Y ℝ × ℝ) (ρ : ℝ), 0 ≤ ρ →
      (∀ k ∈ l, 0 ≤ e k ∧ 0 < sz (y (p k), dy (p k)) ∧ 0 < sz (y (q k), dy (q k)) ∧ IsAngle (Θ (q k)) (sc * y (q k)) (dy (q k)) ∧ |Θ (q k) - Θ (p k)| ≤ 1 / 4 ∧
        (∀ st : Y ℝ × ℝ, 0 < sz (pr st.1) → IsAngle st.2 (sc * st.1.y) st.1.dy →
          IsAngle (step st k).2 (sc * (step st k).1.y) (step st k).1.dy ∧ |(step st k).2 - st.2| ≤ 1 / 4) ∧
        ∃ (W : ℝ → ℝ) (E a b : ℝ) (Sm : ℝ × ℝ → ℝ × ℝ), (∀ st, pr (step st k).1 = Sm (pr st.1)) ∧ Near W E a b Sm (p k) (q k) (e k) ∧
          ContinuousOn W (Set.Icc a b) ∧ (∀ x ∈ Set.Icc a b, |W x - E| ≤ K) ∧ p k ∈ Set.Icc a b ∧ q k ∈ Set.Icc a b ∧ SolvesOn W E a b y dy) →
      Linked p q x0 l x1 →
      16 * (S * (Real.exp (2 * K * (l.map fun k => |q k - p k|).sum + (l.map e).sum) * (ρ + (l.map e).sum))) ≤ 1 →
      sz (pr st.1 - (y x0, dy x0)) ≤ ρ * sz (y x0, dy x0) → IsAngle st.2 (sc * st.1.y) st.1.dy → |st.2 - Θ x0| ≤ 4 * (S * ρ) →
      |(l.foldl step st).2 - Θ x1| ≤ 4 * (S * (Real.exp (2 * K * (l.map fun k => |q k - p k|).sum + (l.map e).sum) * (ρ + (l.map e).sum))) := by
  intro l
  induction l with
  | nil =>
    intro x0 x1 st ρ hρ _ hl _ _ _ hθ
    simp only [Linked] at hl
    subst hl
    simpa using hθ
  | cons k l ih =>
    intro x0 x1 st ρ hρ hk hl hR hd hang hθ
    obtain ⟨h1, h2⟩ := hl
    subst h1
    obtain ⟨e0, n0, n1, aq, tq, hst, W, E, a, b, Sm, hSm, hN, hc, hb, mp, mq, hs⟩ := hk k (by simp)
    have s0 : 0 ≤ (l.map e).sum := List.sum_nonneg (by
      intro x hx
      obtain ⟨m, hm, rfl⟩ := List.mem_map.mp hx
      exact (hk m (List.mem_cons_of_mem _ hm)).1)
    have X0 : 0 ≤ (l.map fun k => |q k - p k|).sum := List.sum_nonneg (by
      intro x hx
      obtain ⟨m, hm, rfl⟩ := List.mem_map.mp hx
      exact abs_nonneg _)
    have hstep := hN.step e0 hK hc hb mp mq hs (pr st.1)
    rw [← hSm] at hstep
    have gr := flow_bound hK hb hs mq mp
    rw [abs_sub_comm] at gr
    rw [List.map_cons, List.map_cons, List.sum_cons, List.sum_cons] at hR ⊢
    rw [List.foldl_cons]
    have IH := ih (step st k) (Real.exp (2 * (K * |q k - p k|) + e k) * (ρ + e k)) (by positivity) (fun m hm => hk m (List.mem_cons_of_mem _ hm)) h2
    set X := (l.map fun k => |q k - p k|).sum
    set s := (l.map e).sum
    set g := K * |q k - p k| with hg
    have g0 : 0 ≤ g := by positivity
    have d1 := step_arith e0 (sz_nonneg _) hstep g0
    set np := sz (y (p k), dy (p k))
    set nq := sz (y (q k), dy (q k))
    -- the relative error after the step
    have hd' : sz (pr (step st k).1 - (y (q k), dy (q k))) ≤ Real.exp (2 * g + e k) * (ρ + e k) * nq := by
      have x2 : 1 ≤ Real.exp (g + e k) := Real.one_le_exp (by linarith)
      have m1 : Real.exp (g + e k) * sz (pr st.1 - (y (p k), dy (p k))) ≤ Real.exp (g + e k) * (ρ * np) := mul_le_mul_of_nonneg_left hd (Real.exp_pos _).le
      have m2 : e k * np ≤ Real.exp (g + e k) * (e k * np) := le_mul_of_one_le_left (by positivity) x2
      have m3 : Real.exp (g + e k) * ((ρ + e k) * np) ≤ Real.exp (g + e k) * ((ρ + e k) * (Real.exp g * nq)) :=
        mul_le_mul_of_nonneg_left (mul_le_mul_of_nonneg_left gr (by linarith)) (Real.exp_pos _).le
      have m4 : Real.exp (2 * g + e k) = Real.exp (g + e k) * Real.exp g := by rw [← Real.exp_add]; congr 1; ring
      rw [m4]
      linarith
    -- the budget
    have hR2 : Real.exp (2 * K * X + s) * (Real.exp (2 * g + e k) * (ρ + e k) + s) ≤ Real.exp (2 * K * (|q k - p k| + X) + (e k + s)) * (ρ + (e k + s)) := by
      have m4 : Real.exp (2 * K * (|q k - p k| + X) + (e k + s)) = Real.exp (2 * K * X + s) * Real.exp (2 * g + e k) := by
        rw [← Real.exp_add]; congr 1; rw [hg]; ring
      rw [m4, mul_assoc (Real.exp (2 * K * X + s))]
      refine mul_le_mul_of_nonneg_left ?_ (Real.exp_pos _).le
      have : 1 * s ≤ Real.exp (2 * g + e k) * s := mul_le_mul_of_nonneg_right (Real.one_le_exp (by positivity)) s0
      linarith
    have hS0 : 0 ≤ S := by linarith
    have hRS := mul_le_mul_of_nonneg_left hR2 hS0
    have hρ' : Real.exp (2 * g + e k) * (ρ + e k) ≤ Real.exp (2 * K * X + s) * (Real.exp (2 * g + e k) * (ρ + e k) + s) := by
      have h1 : 1 ≤ Real.exp (2 * K * X + s) := Real.one_le_exp (by positivity)
      have h2 : 0 ≤ Real.exp (2 * g + e k) * (ρ + e k) := by positivity
      nlinarith
    have hρS := mul_le_mul_of_nonneg_left hρ' hS0
    have hρρ : ρ ≤ Real.exp (2 * g + e k) * (ρ + e k) := by
      have h1 : 1 ≤ Real.exp (2 * g + e k) := Real.one_le_exp (by positivity)
      nlinarith
    have hρρS := mul_le_mul_of_nonneg_left hρρ hS0
    -- the column is not zero
    have hst0 : 0 < sz (pr st.1) := by
      have t1 := sz_le_add (y (p k), dy (p k)) (pr st.1)
      rw [sz_sub_comm] at t1
      have hρ1 : ρ ≤ 1 / 16 := by nlinarith
      have : ρ * np ≤ 1 / 16 * np := mul_le_mul_of_nonneg_right hρ1 n0.le
      linarith
    obtain ⟨a1, a2⟩ := hst st hst0 hang
    obtain ⟨m, hm⟩ := near_angle hsc hsS n1 a1 aq hd' (by linarith)
    have hp3 := Real.pi_gt_three
    have m0 : m = 0 := by
      refine int_pi_zero ?_
      rw [abs_lt]
      rw [abs_le] at hm a2 tq hθ
      constructor <;> linarith [hm.1, hm.2, a2.1, a2.2, tq.1, tq.2, hθ.1, hθ.2]
    rw [m0, Int.cast_zero, zero_mul, sub_zero] at hm
    exact (IH (by linarith) hd' a1 hm).trans (by linarith)

end Verif.Solver
