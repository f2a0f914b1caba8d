import Verif.Lemmas.AngleConverge
import Verif.Lemmas.UniformMesh

/-!
# Solutions on a mesh have continuous angles that count their zeros
-/
namespace Verif.Solver
open Verif Verif.Prufer Verif.YT Verif.CalcT Verif.Mesh Verif.Propag Verif.Formulas Verif.Legendre Verif.Spec
open Real (pi)

/-- A solution on a mesh is differentiable on the whole interval. -/
theorem mesh_deriv {W : Sec ℝ → ℝ → ℝ} {E : ℝ} {y dy : ℝ → ℝ} : ∀ {l : List (Sec ℝ)} {a b : ℝ}, Chn a l b → (∀ s ∈ l, s.min < s.max) → l ≠ [] →
    SolvesMesh W E l y dy → ∀ x ∈ Set.Icc a b, HasDerivWithinAt y (dy x) (Set.Icc a b) x
  | [], _, _, _, _, h, _ => absurd rfl h
  | [s], a, b, h, hp, _, hy => by
    obtain ⟨h1, h2⟩ := h
    have h2 : s.max = b := h2
    subst h1 h2
    exact (hy s (by simp)).d1
  | s :: t :: l, a, b, h, hp, _, hy => by
    have hp' : ∀ u ∈ t :: l, u.min < u.max := fun u hu => hp u (List.mem_cons_of_mem _ hu)
    have e := h.1
    have hr := (chn_range h.2 hp').1
    subst e
    exact deriv_join (hy s (by simp)).d1 (mesh_deriv h.2 hp' (by simp) (fun u hu => hy u (List.mem_cons_of_mem _ hu))) (hp s (by simp)).le hr

theorem mesh_c1 {M : ℝ} (hM : 1 ≤ M) {eps H E : ℝ} {W : Sec ℝ → ℝ → ℝ} {dmin dmax : ℝ} {secs : List (Sec ℝ)} (h : FitMesh eps M H W dmin dmax secs)
    (hE : |E| ≤ M) {y dy : ℝ → ℝ} (hy : SolvesMesh W E secs y dy) {x : ℝ} (hx : x ∈ Set.Icc dmin dmax)
    (hn : y x ≠ 0 ∨ dy x ≠ 0) : C1NoDouble dmin dmax y dy := by
  have ok := fit_okMesh h hE
  refine ⟨mesh_deriv ok.chn ok.pos (List.ne_nil_of_length_pos h.mesh.length_pos) hy, (hy.right ok).c2, fun x' hx' hz => ?_⟩
  have h0 : 0 < sz (y x, dy x) := by
    show 0 < max |y x| |dy x|
    rcases hn with q | q
    · exact lt_max_of_lt_left (abs_pos.mpr q)
    · exact lt_max_of_lt_right (abs_pos.mpr q)
  have := mesh_nonzero hM h hE hy hx hx' h0
  rw [hz.1, hz.2] at this
  simp [sz] at this

/-- A continuous angle normalised at a given point. -/
theorem contAngle_exists {A B sc : ℝ} (hAB : A < B) (hsc : 0 < sc) {y dy : ℝ → ℝ} (h : C1NoDouble A B y dy) {a : ℝ} (ha : a ∈ Set.Icc A B) {θ : ℝ}
    (hθ : IsAngle θ (sc * y a) (dy a)) : ∃ Θ, ContAngle A B sc y dy Θ ∧ Θ a = θ := by
  obtain ⟨Θ, h1, h2, h3⟩ := lift_exists hAB (u := fun x => sc * y x) (v := dy)
    (continuousOn_const.mul h.cont_y) h.cont
    (fun x hx h' => h.simple x hx ⟨(mul_eq_zero.mp h'.1).resolve_left hsc.ne', h'.2⟩) a ha θ hθ
  exact ⟨Θ, ⟨h1, h2⟩, h3⟩

/-- The angle normalised to `[0, π)` at the left end and the one normalised to `(0, π]` at the right end differ everywhere by `π` times
the number of zeros inside. -/
theorem interior_count {A B sc : ℝ} (hAB : A < B) (hs : 0 < sc) {y dy Θl Θr : ℝ → ℝ} (h : C1NoDouble A B y dy) (hl : ContAngle A B sc y dy Θl)
    (hr : ContAngle A B sc y dy Θr) (nl : 0 ≤ Θl A ∧ Θl A < pi) (nr : 0 < Θr B ∧ Θr B ≤ pi) :
    ({x ∈ Set.Ioo A B | y x = 0} : Set ℝ).Finite ∧
    ∀ x ∈ Set.Icc A B, Θl x - Θr x = (({x ∈ Set.Ioo A B | y x = 0} : Set ℝ).ncard : ℝ) * pi := by
  have hpi := Real.pi_pos
  have hmA : A ∈ Set.Icc A B := ⟨le_rfl, hAB.le⟩
  have hmB : B ∈ Set.Icc A B := ⟨hAB.le, le_rfl⟩
  obtain ⟨c1, c2⟩ := count_Ioc hs h hl hmA hmB hAB.le
  have hfl0 : ⌊Θl A / pi⌋ = 0 := by
    rw [Int.floor_eq_zero_iff]
    exact ⟨div_nonneg nl.1 hpi.le, (div_lt_one hpi).mpr nl.2⟩
  rw [hfl0, sub_zero] at c2
  have hne : ∀ x ∈ Set.Icc A B, ¬ (sc * y x = 0 ∧ dy x = 0) := fun x hx h' =>
    h.simple x hx ⟨(mul_eq_zero.mp h'.1).resolve_left hs.ne', h'.2⟩
  obtain ⟨m, hmk⟩ := (hr.angle _ hmB).unique (hl.angle _ hmB) (hne _ hmB)
  have hIoo : ({x ∈ Set.Ioo A B | y x = 0} : Set ℝ) ⊆ {x ∈ Set.Ioc A B | y x = 0} :=
    fun x hx => ⟨⟨hx.1.1, hx.1.2.le⟩, hx.2⟩
  have hcard : (({x ∈ Set.Ioo A B | y x = 0} : Set ℝ).ncard : ℤ) = m := by
    by_cases h0 : y B = 0
    · have e : ({x ∈ Set.Ioc A B | y x = 0} : Set ℝ) =
          insert B ({x ∈ Set.Ioo A B | y x = 0} : Set ℝ) := by
        ext x
        simp only [Set.mem_ofPred_eq, Set.mem_insert_iff]
        constructor
        · rintro ⟨hx, hy⟩
          rcases eq_or_lt_of_le hx.2 with h | h
          · exact Or.inl h
          · exact Or.inr ⟨⟨hx.1, h⟩, hy⟩
        · rintro (h | ⟨hx, hy⟩)
          · subst h; exact ⟨⟨hAB, le_rfl⟩, h0⟩
          · exact ⟨⟨hx.1, hx.2.le⟩, hy⟩
      have hcr : ({x ∈ Set.Ioc A B | y x = 0} : Set ℝ).ncard =
          ({x ∈ Set.Ioo A B | y x = 0} : Set ℝ).ncard + 1 := by
        rw [e, Set.ncard_insert_of_notMem (fun h => lt_irrefl _ h.1.2) (c1.subset hIoo)]
      obtain ⟨n, hn1⟩ := (zero_iff hs h hr hmB).mp h0
      have n1 : n = 1 := by
        have i1 : 0 < n := by
          have : ((0 : ℤ) : ℝ) * pi < (n : ℝ) * pi := by push_cast; linarith [nr.1]
          exact_mod_cast lt_of_mul_lt_mul_right this hpi.le
        have i2 : n < 2 := by
          have : (n : ℝ) * pi < ((2 : ℤ) : ℝ) * pi := by push_cast; linarith [nr.2]
          exact_mod_cast lt_of_mul_lt_mul_right this hpi.le
        omega
      have : ⌊Θl B / pi⌋ = m + 1 := by
        rw [hmk, hn1, n1]
        have : (((1 : ℤ) : ℝ) * pi + (m : ℝ) * pi) / pi = ((m + 1 : ℤ) : ℝ) := by
          field_simp; push_cast; ring
        rw [this, Int.floor_intCast]
      rw [hcr, this] at c2
      push_cast at c2
      omega
    · have e : ({x ∈ Set.Ioc A B | y x = 0} : Set ℝ) = ({x ∈ Set.Ioo A B | y x = 0} : Set ℝ) := by
        ext x
        simp only [Set.mem_ofPred_eq]
        constructor
        · rintro ⟨hx, hy⟩
          exact ⟨⟨hx.1, lt_of_le_of_ne hx.2 (fun h => h0 (h ▸ hy))⟩, hy⟩
        · rintro ⟨hx, hy⟩
          exact ⟨⟨hx.1, hx.2.le⟩, hy⟩
      rw [← e, c2, hmk]
      have hlt' : Θr B < pi := lt_of_le_of_ne nr.2
        (fun h' => h0 ((zero_iff hs h hr hmB).mpr ⟨1, by rw [h']; push_cast; ring⟩))
      rw [add_div, mul_div_assoc, div_self hpi.ne', mul_one, Int.floor_add_intCast,
        Int.floor_eq_zero_iff.mpr ⟨div_nonneg nr.1.le hpi.le, (div_lt_one hpi).mpr hlt'⟩, zero_add]
  refine ⟨c1.subset hIoo, fun x hx => ?_⟩
  have hconst : Θl B - Θl x = Θr B - Θr x :=
    lift_unique (Set.ordConnected_Icc.isPreconnected) hl.cont hr.cont hl.angle hr.angle hne hx hmB
  have : ((({x ∈ Set.Ioo A B | y x = 0} : Set ℝ).ncard : ℤ) : ℝ) = (m : ℝ) := by exact_mod_cast hcard
  push_cast at this
  rw [this]
  linarith

/-- A direction whose angle is within `δ` of a multiple of `π` is nearly on the axis. -/
theorem angle_axis {θ sc u v δ : ℝ} (hsc : 1 ≤ sc) (h : IsAngle θ (sc * u) v) {k : ℤ} (hk : |θ - k * pi| ≤ δ) : |u| ≤ δ * (|u| + |v|) := by
  obtain ⟨ρ, h1, h2⟩ := h.rep
  have h0 : 0 ≤ δ := (abs_nonneg _).trans hk
  have hs : |Real.sin θ| ≤ δ := by
    have : |Real.sin θ| = |Real.sin (θ - k * pi)| := by
      rw [Real.sin_sub_int_mul_pi, abs_mul, abs_zpow]; simp
    rw [this]
    exact (Real.abs_sin_le_abs).trans hk
  have hρ : |ρ| ≤ |sc * u| + |v| := by
    rw [h1, h2, abs_mul, abs_mul, ← mul_add]
    have : 1 ≤ |Real.sin θ| + |Real.cos θ| := by
      have e := Real.sin_sq_add_cos_sq θ
      have a1 := abs_nonneg (Real.sin θ)
      have a2 := abs_nonneg (Real.cos θ)
      rw [← sq_abs (Real.sin θ), ← sq_abs (Real.cos θ)] at e
      by_contra hc
      push Not at hc
      nlinarith [mul_nonneg a1 a2]
    exact le_mul_of_one_le_right (abs_nonneg _) this
  have s0 : 0 < sc := by linarith
  have a1 : sc * |u| = |ρ| * |Real.sin θ| := by
    rw [← abs_mul, ← h1, abs_mul, abs_of_pos s0]
  have a2 : |ρ| * |Real.sin θ| ≤ (sc * |u| + |v|) * δ := by
    rw [abs_mul, abs_of_pos s0] at hρ
    exact mul_le_mul hρ hs (abs_nonneg _) (by positivity)
  have a3 : (sc * |u| + |v|) * δ ≤ sc * ((|u| + |v|) * δ) := by
    have : |v| * δ ≤ sc * (|v| * δ) := le_mul_of_one_le_left (by positivity) hsc
    linarith [mul_add sc (|u| * δ) (|v| * δ), add_mul (sc * |u|) (|v|) δ, add_mul (|u|) (|v|) δ, mul_assoc sc |u| δ, congrArg (sc * ·) (add_mul (|u|) (|v|) δ)]
  have := le_of_mul_le_mul_left (a1.le.trans (a2.trans a3)) s0
  linarith

theorem floor_near {θ Θ : ℝ} {δ : ℝ} (h : |θ - Θ| ≤ δ) (hno : ∀ k : ℤ, ¬ |Θ - k * pi| ≤ δ) : ⌊θ / pi⌋ = ⌊Θ / pi⌋ := by
  have hpi := Real.pi_pos
  set n := ⌊Θ / pi⌋ with hn
  have h1 : (n : ℝ) * pi ≤ Θ := by rw [← le_div_iff₀ hpi]; exact Int.floor_le _
  have h2 : Θ < ((n : ℝ) + 1) * pi := by rw [← div_lt_iff₀ hpi]; exact Int.lt_floor_add_one _
  rw [abs_le] at h
  rw [Int.floor_eq_iff, le_div_iff₀ hpi, div_lt_iff₀ hpi]
  constructor
  · by_contra hc
    push Not at hc
    exact hno n (abs_le.mpr ⟨by linarith, by linarith⟩)
  · by_contra hc
    push Not at hc
    exact hno (n + 1) (by push_cast; exact abs_le.mpr ⟨by linarith, by linarith⟩)

theorem ceil_near {θ Θ : ℝ} {δ : ℝ} (h : |θ - Θ| ≤ δ) (hno : ∀ k : ℤ, ¬ |Θ - k * pi| ≤ δ) : ⌈θ / pi⌉ = ⌈Θ / pi⌉ := by
  have := floor_near (θ := -θ) (Θ := -Θ) (δ := δ) (by rw [show -θ - -Θ = -(θ - Θ) by ring, abs_neg]; exact h)
    (fun k hk => hno (-k) (by push_cast; rw [show Θ - -(k : ℝ) * pi = -(-Θ - k * pi) by ring, abs_neg]; exact hk))
  rw [neg_div, neg_div, Int.floor_neg, Int.floor_neg] at this
  omega

end Verif.Solver
