import Verif.Lemmas.OdeExist

/-!
# The solution flow on an interval and maps close to it
-/
namespace Verif

/-- size of a pair of values -/
noncomputable def sz (u : ℝ × ℝ) : ℝ := max |u.1| |u.2|

theorem sz_nonneg (u : ℝ × ℝ) : 0 ≤ sz u := le_max_of_le_left (abs_nonneg _)
theorem le_sz1 (u : ℝ × ℝ) : |u.1| ≤ sz u := le_max_left _ _
theorem le_sz2 (u : ℝ × ℝ) : |u.2| ≤ sz u := le_max_right _ _
theorem sz_le {u : ℝ × ℝ} {c : ℝ} (h1 : |u.1| ≤ c) (h2 : |u.2| ≤ c) : sz u ≤ c := max_le h1 h2
theorem sz_add (u v : ℝ × ℝ) : sz (u + v) ≤ sz u + sz v :=
  sz_le ((abs_add_le _ _).trans (add_le_add (le_sz1 u) (le_sz1 v))) ((abs_add_le _ _).trans (add_le_add (le_sz2 u) (le_sz2 v)))
theorem sz_tri (u v w : ℝ × ℝ) : sz (u - w) ≤ sz (u - v) + sz (v - w) := by
  have := sz_add (u - v) (v - w)
  rwa [sub_add_sub_cancel] at this
theorem sz_le_add (u v : ℝ × ℝ) : sz u ≤ sz v + sz (u - v) := by
  have := sz_add v (u - v)
  rwa [add_sub_cancel] at this
theorem sz_sub_comm (u v : ℝ × ℝ) : sz (u - v) = sz (v - u) := by
  unfold sz; simp only [Prod.fst_sub, Prod.snd_sub]; rw [abs_sub_comm, abs_sub_comm u.2]

/-- A linear combination of solutions is a solution. -/
theorem SolvesOn.comb {V : ℝ → ℝ} {E a b : ℝ} {y dy z dz : ℝ → ℝ} (hy : SolvesOn V E a b y dy) (hz : SolvesOn V E a b z dz) (α β : ℝ) :
    SolvesOn V E a b (fun x => α * y x + β * z x) (fun x => α * dy x + β * dz x) :=
  ⟨fun x hx => ((hy.d1 x hx).const_mul α).add ((hz.d1 x hx).const_mul β),
    fun x hx => (((hy.d2 x hx).const_mul α).add ((hz.d2 x hx).const_mul β)).congr_deriv (by ring)⟩

/-- A fundamental system at the left end point, with Wronskian 1. -/
theorem fundamental {V : ℝ → ℝ} {E a b : ℝ} (hab : a ≤ b) (hV : ContinuousOn V (Set.Icc a b)) :
    ∃ φ dφ ψ dψ : ℝ → ℝ, SolvesOn V E a b φ dφ ∧ SolvesOn V E a b ψ dψ ∧ φ a = 1 ∧ dφ a = 0 ∧ ψ a = 0 ∧ dψ a = 1 ∧
      ∀ x ∈ Set.Icc a b, φ x * dψ x - dφ x * ψ x = 1 := by
  obtain ⟨φ, dφ, hφ, e1, e2⟩ := exists_solution hab hV (E := E) 1 0
  obtain ⟨ψ, dψ, hψ, e3, e4⟩ := exists_solution hab hV (E := E) 0 1
  refine ⟨φ, dφ, ψ, dψ, hφ, hψ, e1, e2, e3, e4, fun x hx => ?_⟩
  rw [wronskian_const hφ hψ hx, e1, e2, e3, e4]; ring

/-- A solution through any pair of values at any point. -/
theorem exists_solution_at {V : ℝ → ℝ} {E a b : ℝ} (hV : ContinuousOn V (Set.Icc a b)) {x : ℝ} (hx : x ∈ Set.Icc a b) (u : ℝ × ℝ) :
    ∃ z dz : ℝ → ℝ, SolvesOn V E a b z dz ∧ z x = u.1 ∧ dz x = u.2 := by
  obtain ⟨φ, dφ, ψ, dψ, hφ, hψ, -, -, -, -, hw⟩ := fundamental (E := E) (hx.1.trans hx.2) hV
  have w := hw x hx
  refine ⟨_, _, hφ.comb hψ (dψ x * u.1 - ψ x * u.2) (φ x * u.2 - dφ x * u.1), ?_, ?_⟩
  · linear_combination u.1 * w
  · linear_combination u.2 * w

/-- Growth between any two points of the interval. -/
theorem flow_bound {V : ℝ → ℝ} {E a b K : ℝ} {y dy : ℝ → ℝ} (hK : 1 ≤ K) (hq : ∀ x ∈ Set.Icc a b, |V x - E| ≤ K)
    (hs : SolvesOn V E a b y dy) {x x' : ℝ} (hx : x ∈ Set.Icc a b) (hx' : x' ∈ Set.Icc a b) :
    sz (y x', dy x') ≤ Real.exp (K * |x' - x|) * sz (y x, dy x) := by
  rcases le_total x x' with h | h
  · have := solution_bound hK (fun t ht => hq t ⟨hx.1.trans ht.1, ht.2.trans hx'.2⟩) (hs.mono hx.1 hx'.2) (x := x') ⟨h, le_rfl⟩
    rw [abs_of_nonneg (by linarith), mul_comm]
    exact this
  · have hm := (hs.mono hx'.1 hx.2).reflect
    have := solution_bound hK (V := fun t => V (x - t)) (E := E) (a := 0) (b := x - x') (y := fun t => y (x - t)) (dy := fun t => -dy (x - t))
      (fun t ht => hq _ ⟨by linarith [ht.2, hx'.1], by linarith [ht.1, hx.2]⟩) hm (x := x - x') ⟨by linarith, le_rfl⟩
    simp only [sub_sub_cancel, sub_zero, abs_neg] at this
    rw [abs_of_nonpos (by linarith), mul_comm, neg_sub]
    exact this

/-- The map `S` reproduces, up to the relative error `e`, the values at `x'` of every solution from its values at `x`. -/
def Near (V : ℝ → ℝ) (E a b : ℝ) (S : ℝ × ℝ → ℝ × ℝ) (x x' e : ℝ) : Prop :=
  ∀ z dz : ℝ → ℝ, SolvesOn V E a b z dz → sz (S (z x, dz x) - (z x', dz x')) ≤ e * sz (z x, dz x)

theorem Near.mono {V : ℝ → ℝ} {E a b x x' e e' : ℝ} {S : ℝ × ℝ → ℝ × ℝ} (h : Near V E a b S x x' e) (he : e ≤ e') : Near V E a b S x x' e' :=
  fun z dz hz => (h z dz hz).trans (mul_le_mul_of_nonneg_right he (sz_nonneg _))

theorem Near.refl (V : ℝ → ℝ) (E a b x : ℝ) : Near V E a b id x x 0 := by
  intro z dz _; simp [sz]

/-- One step for inexact values. -/
theorem Near.step {V : ℝ → ℝ} {E a b K x x' e : ℝ} {S : ℝ × ℝ → ℝ × ℝ} (h : Near V E a b S x x' e) (he : 0 ≤ e)
    (hK : 1 ≤ K) (hV : ContinuousOn V (Set.Icc a b)) (hq : ∀ x ∈ Set.Icc a b, |V x - E| ≤ K)
    (hx : x ∈ Set.Icc a b) (hx' : x' ∈ Set.Icc a b) {y dy : ℝ → ℝ} (hy : SolvesOn V E a b y dy) (u : ℝ × ℝ) :
    sz (S u - (y x', dy x')) ≤ (Real.exp (K * |x' - x|) + e) * sz (u - (y x, dy x)) + e * sz (y x, dy x) := by
  obtain ⟨z, dz, hz, e1, e2⟩ := exists_solution_at (E := E) hV hx u
  have hu : (z x, dz x) = u := by rw [e1, e2]
  have h1 := h z dz hz
  rw [hu] at h1
  have h2 := flow_bound hK hq (hz.comb hy 1 (-1)) hx hx'
  have e3 : ∀ t, (1 * z t + -1 * y t, 1 * dz t + -1 * dy t) = (z t, dz t) - (y t, dy t) := fun t => by
    ext <;> simp <;> ring
  rw [e3, e3, hu] at h2
  have h3 := sz_tri (S u) (z x', dz x') (y x', dy x')
  have h4 := sz_le_add u (y x, dy x)
  have h5 := mul_le_mul_of_nonneg_left h4 he
  linarith

/-- Composition of two near maps. -/
theorem Near.comp {V : ℝ → ℝ} {E a b K x x' x'' e e' : ℝ} {S S' : ℝ × ℝ → ℝ × ℝ} (h : Near V E a b S x x' e) (h' : Near V E a b S' x' x'' e')
    (he' : 0 ≤ e') (hK : 1 ≤ K) (hV : ContinuousOn V (Set.Icc a b)) (hq : ∀ x ∈ Set.Icc a b, |V x - E| ≤ K)
    (hx : x ∈ Set.Icc a b) (hx' : x' ∈ Set.Icc a b) (hx'' : x'' ∈ Set.Icc a b) :
    Near V E a b (fun u => S' (S u)) x x'' ((Real.exp (K * |x'' - x'|) + e') * e + e' * Real.exp (K * |x' - x|)) := by
  intro z dz hz
  have h1 := h z dz hz
  have h2 := h'.step he' hK hV hq hx' hx'' hz (S (z x, dz x))
  have h3 := flow_bound hK hq hz hx hx'
  have h4 := mul_le_mul_of_nonneg_left h1 (add_nonneg (Real.exp_pos (K * |x'' - x'|)).le he')
  have h5 := mul_le_mul_of_nonneg_left h3 he'
  refine h2.trans ?_
  calc _ ≤ (Real.exp (K * |x'' - x'|) + e') * (e * sz (z x, dz x)) + e' * (Real.exp (K * |x' - x|) * sz (z x, dz x)) := add_le_add h4 h5
    _ = _ := by ring

/-- matrix times vector, matrix given by its entries -/
def mv (A B C D : ℝ) (u : ℝ × ℝ) : ℝ × ℝ := (A * u.1 + B * u.2, C * u.1 + D * u.2)

/-- If a matrix is near the flow from `a` to `x`, its adjugate is near the flow from `x` to `a`. -/
theorem Near.adj {V : ℝ → ℝ} {E a b x e : ℝ} {A B C D : ℝ} (h : Near V E a b (mv A B C D) a x e) (hV : ContinuousOn V (Set.Icc a b))
    (hx : x ∈ Set.Icc a b) : Near V E a b (mv D (-B) (-C) A) x a (2 * e) := by
  obtain ⟨φ, dφ, ψ, dψ, hφ, hψ, e1, e2, e3, e4, _⟩ := fundamental (E := E) (hx.1.trans hx.2) hV
  intro z dz hz
  have w1 := wronskian_const hz hψ hx
  have w2 := wronskian_const hφ hz hx
  rw [e3, e4] at w1
  rw [e1, e2] at w2
  have k1 := h φ dφ hφ
  have k2 := h ψ dψ hψ
  rw [e1, e2] at k1
  rw [e3, e4] at k2
  have s1 : sz (1, 0) = 1 := by simp [sz]
  have s2 : sz (0, 1) = 1 := by simp [sz]
  rw [s1, mul_one] at k1
  rw [s2, mul_one] at k2
  have a1 := (le_sz1 _).trans k1
  have a2 := (le_sz2 _).trans k1
  have a3 := (le_sz1 _).trans k2
  have a4 := (le_sz2 _).trans k2
  simp only [mv, Prod.fst_sub, Prod.snd_sub, mul_one, mul_zero, add_zero, zero_add] at a1 a2 a3 a4
  have e0 : 0 ≤ e := (abs_nonneg _).trans a1
  have z1 := le_sz1 (z x, dz x)
  have z2 := le_sz2 (z x, dz x)
  simp only at z1 z2
  have lin : ∀ {p q : ℝ}, |p| ≤ e → |q| ≤ e → |p * z x + q * dz x| ≤ 2 * e * sz (z x, dz x) := by
    intro p q hp hq
    refine (abs_add_le _ _).trans ?_
    rw [abs_mul, abs_mul]
    have := mul_le_mul hp z1 (abs_nonneg _) e0
    have := mul_le_mul hq z2 (abs_nonneg _) e0
    linarith
  refine sz_le ?_ ?_
  · have : (mv D (-B) (-C) A (z x, dz x) - (z a, dz a)).1 = (D - dψ x) * z x + -(B - ψ x) * dz x := by
      simp only [mv, Prod.fst_sub]; linear_combination w1
    rw [this]
    exact lin a4 (by rwa [abs_neg])
  · have : (mv D (-B) (-C) A (z x, dz x) - (z a, dz a)).2 = -(C - dφ x) * z x + (A - φ x) * dz x := by
      simp only [mv, Prod.snd_sub]; linear_combination w2
    rw [this]
    exact lin (by rwa [abs_neg]) a1

end Verif
