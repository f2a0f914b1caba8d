import Verif.Spec.Ode
import Mathlib.Analysis.ODE.Gronwall
import Mathlib.Analysis.Calculus.Deriv.Prod

/-!
# Defect and error of an approximate solution
-/
namespace Verif

theorem deriv_right {f : ℝ → ℝ} {f' a b x : ℝ} (hx : x ∈ Set.Ico a b) (h : HasDerivWithinAt f f' (Set.Icc a b) x) :
    HasDerivWithinAt f f' (Set.Ici x) x := by
  have h1 : HasDerivWithinAt f f' (Set.Icc x b) x := h.mono (Set.Icc_subset_Icc_left hx.1)
  exact h1.mono_of_mem_nhdsWithin (Icc_mem_nhdsGE hx.2)

theorem gronwallBound_le {K ε x : ℝ} (hK : 0 < K) (hε : 0 ≤ ε) (hx : 0 ≤ x) :
    gronwallBound 0 K ε x ≤ ε * x * Real.exp (K * x) := by
  rw [gronwallBound_of_K_ne_0 hK.ne']
  have h1 : Real.exp (K * x) - 1 ≤ K * x * Real.exp (K * x) := by
    have h2 := Real.add_one_le_exp (-(K * x))
    have h3 : Real.exp (K * x) * Real.exp (-(K * x)) = 1 := by rw [← Real.exp_add]; simp
    have h4 := Real.exp_pos (K * x)
    nlinarith
  calc 0 * Real.exp (K * x) + ε / K * (Real.exp (K * x) - 1) ≤ 0 * Real.exp (K * x) + ε / K * (K * x * Real.exp (K * x)) := by
        have : 0 ≤ ε / K := by positivity
        nlinarith
    _ = ε * x * Real.exp (K * x) := by field_simp; ring

/-- If `u' ≈ w` and `w' ≈ q u` up to `r` on `[a, b]`, where `|q| ≤ K` and `1 ≤ K`, then `(u, w)` is within
`r (x-a) e^{K (x-a)}` of the exact solution with the same initial values. -/
theorem defect_bound {a b K r : ℝ} {q u du w dw y dy : ℝ → ℝ} (hK : 1 ≤ K) (hr : 0 ≤ r)
    (hq : ∀ x ∈ Set.Icc a b, |q x| ≤ K)
    (hu : ∀ x ∈ Set.Icc a b, HasDerivWithinAt u (du x) (Set.Icc a b) x)
    (hw : ∀ x ∈ Set.Icc a b, HasDerivWithinAt w (dw x) (Set.Icc a b) x)
    (h1 : ∀ x ∈ Set.Icc a b, |du x - w x| ≤ r) (h2 : ∀ x ∈ Set.Icc a b, |dw x - q x * u x| ≤ r)
    (hy : ∀ x ∈ Set.Icc a b, HasDerivWithinAt y (dy x) (Set.Icc a b) x)
    (hdy : ∀ x ∈ Set.Icc a b, HasDerivWithinAt dy (q x * y x) (Set.Icc a b) x)
    (i1 : u a = y a) (i2 : w a = dy a) {x : ℝ} (hx : x ∈ Set.Icc a b) :
    |u x - y x| ≤ r * (x - a) * Real.exp (K * (x - a)) ∧ |w x - dy x| ≤ r * (x - a) * Real.exp (K * (x - a)) := by
  have hK0 : (0 : ℝ) ≤ K := by linarith
  have sub : ∀ t ∈ Set.Ico a b, t ∈ Set.Icc a b := fun t ht => ⟨ht.1, ht.2.le⟩
  have key := dist_le_of_approx_trajectories_ODE_of_mem (E := ℝ × ℝ) (a := a) (b := b) (K := ⟨K, hK0⟩)
    (v := fun t p => (p.2, q t * p.1)) (s := fun _ => Set.univ) (εf := r) (εg := 0) (δ := 0)
    (f := fun t => (u t, w t)) (g := fun t => (y t, dy t)) (f' := fun t => (du t, dw t))
    (g' := fun t => (dy t, q t * y t))
    (by
      intro t ht
      apply LipschitzWith.lipschitzOnWith
      refine LipschitzWith.of_dist_le_mul (fun p p' => ?_)
      have hqt := hq t (sub t ht)
      rw [Prod.dist_eq, Prod.dist_eq]
      simp only [Real.dist_eq, NNReal.coe_mk]
      refine max_le ?_ ?_
      · calc |p.2 - p'.2| ≤ max |p.1 - p'.1| |p.2 - p'.2| := le_max_right _ _
          _ ≤ K * max |p.1 - p'.1| |p.2 - p'.2| := by
            have : 0 ≤ max |p.1 - p'.1| |p.2 - p'.2| := le_max_of_le_left (abs_nonneg _)
            nlinarith
      · rw [← mul_sub, abs_mul]
        exact mul_le_mul hqt (le_max_left _ _) (abs_nonneg _) hK0)
    (fun t ht => ((hu t ht).continuousWithinAt.prodMk (hw t ht).continuousWithinAt))
    (fun t ht => (deriv_right ht (hu t (sub t ht))).prodMk (deriv_right ht (hw t (sub t ht))))
    (fun t ht => by
      rw [Prod.dist_eq]
      simp only [Real.dist_eq]
      exact max_le (h1 t (sub t ht)) (h2 t (sub t ht)))
    (fun _ _ => trivial)
    (fun t ht => ((hy t ht).continuousWithinAt.prodMk (hdy t ht).continuousWithinAt))
    (fun t ht => (deriv_right ht (hy t (sub t ht))).prodMk (deriv_right ht (hdy t (sub t ht))))
    (fun t ht => by simp) (fun _ _ => trivial) (by simp [i1, i2]) x hx
  rw [Prod.dist_eq] at key
  simp only [Real.dist_eq, NNReal.coe_mk, add_zero] at key
  have hb := gronwallBound_le (K := K) (ε := r) (x := x - a) (by linarith) hr (by linarith [hx.1])
  exact ⟨((le_max_left _ _).trans key).trans hb, ((le_max_right _ _).trans key).trans hb⟩

/-- Solutions grow at most exponentially. -/
theorem solution_bound {V : ℝ → ℝ} {E a b K : ℝ} {y dy : ℝ → ℝ} (hK : 1 ≤ K) (hq : ∀ x ∈ Set.Icc a b, |V x - E| ≤ K)
    (hs : SolvesOn V E a b y dy) {x : ℝ} (hx : x ∈ Set.Icc a b) :
    max |y x| |dy x| ≤ max |y a| |dy a| * Real.exp (K * (x - a)) := by
  have hK0 : (0 : ℝ) ≤ K := by linarith
  have sub : ∀ t ∈ Set.Ico a b, t ∈ Set.Icc a b := fun t ht => ⟨ht.1, ht.2.le⟩
  have key := norm_le_gronwallBound_of_norm_deriv_right_le (E := ℝ × ℝ) (f := fun t => (y t, dy t))
    (f' := fun t => (dy t, (V t - E) * y t)) (δ := max |y a| |dy a|) (K := K) (ε := 0) (a := a) (b := b)
    (fun t ht => ((hs.d1 t ht).continuousWithinAt.prodMk (hs.d2 t ht).continuousWithinAt))
    (fun t ht => (deriv_right ht (hs.d1 t (sub t ht))).prodMk (deriv_right ht (hs.d2 t (sub t ht))))
    (by simp [Prod.norm_def])
    (fun t ht => by
      simp only [Prod.norm_def, Real.norm_eq_abs, add_zero]
      refine max_le ?_ ?_
      · have h1 := le_max_right |y t| |dy t|
        have : 0 ≤ |dy t| := abs_nonneg _
        nlinarith
      · rw [abs_mul]
        exact mul_le_mul (hq t (sub t ht)) (le_max_left _ _) (abs_nonneg _) hK0) x hx
  rw [gronwallBound_ε0] at key
  simpa [Prod.norm_def] using key

end Verif
