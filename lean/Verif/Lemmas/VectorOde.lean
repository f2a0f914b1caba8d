import Verif.Lemmas.Ode
import Mathlib.Analysis.Matrix.Normed
import Mathlib.Analysis.Calculus.Deriv.Add
import Mathlib.Analysis.Calculus.Deriv.Mul

/-!
# Defect and error of an approximate solution, vector valued
-/
namespace Verif

section
variable {X : Type} [NormedAddCommGroup X] [NormedSpace ℝ X]

theorem vderiv_right {f : ℝ → X} {f' : X} {a b x : ℝ} (hx : x ∈ Set.Ico a b) (h : HasDerivWithinAt f f' (Set.Icc a b) x) :
    HasDerivWithinAt f f' (Set.Ici x) x := by
  have h1 : HasDerivWithinAt f f' (Set.Icc x b) x := h.mono (Set.Icc_subset_Icc_left hx.1)
  exact h1.mono_of_mem_nhdsWithin (Icc_mem_nhdsGE hx.2)

/-- If `u' ≈ w` and `w' ≈ q u` up to `r` on `[a, b]`, where `q x` is `K`-Lipschitz and `1 ≤ K`, then `(u, w)` is within
`r (x-a) e^{K (x-a)}` of the exact solution with the same initial values. -/
theorem vdefect_bound {a b K r : ℝ} {q : ℝ → X → X} {u du w dw y dy : ℝ → X} (hK : 1 ≤ K) (hr : 0 ≤ r)
    (hq : ∀ x ∈ Set.Icc a b, ∀ p p', ‖q x p - q x p'‖ ≤ K * ‖p - p'‖)
    (hu : ∀ x ∈ Set.Icc a b, HasDerivWithinAt u (du x) (Set.Icc a b) x)
    (hw : ∀ x ∈ Set.Icc a b, HasDerivWithinAt w (dw x) (Set.Icc a b) x)
    (h1 : ∀ x ∈ Set.Icc a b, ‖du x - w x‖ ≤ r) (h2 : ∀ x ∈ Set.Icc a b, ‖dw x - q x (u x)‖ ≤ r)
    (hy : ∀ x ∈ Set.Icc a b, HasDerivWithinAt y (dy x) (Set.Icc a b) x)
    (hdy : ∀ x ∈ Set.Icc a b, HasDerivWithinAt dy (q x (y x)) (Set.Icc a b) x)
    (i1 : u a = y a) (i2 : w a = dy a) {x : ℝ} (hx : x ∈ Set.Icc a b) :
    ‖u x - y x‖ ≤ r * (x - a) * Real.exp (K * (x - a)) ∧ ‖w x - dy x‖ ≤ r * (x - a) * Real.exp (K * (x - a)) := by
  have hK0 : (0 : ℝ) ≤ K := by linarith
  have sub : ∀ t ∈ Set.Ico a b, t ∈ Set.Icc a b := fun t ht => ⟨ht.1, ht.2.le⟩
  have key := dist_le_of_approx_trajectories_ODE_of_mem (E := X × X) (a := a) (b := b) (K := ⟨K, hK0⟩)
    (v := fun t p => (p.2, q t p.1)) (s := fun _ => Set.univ) (εf := r) (εg := 0) (δ := 0)
    (f := fun t => (u t, w t)) (g := fun t => (y t, dy t)) (f' := fun t => (du t, dw t))
    (g' := fun t => (dy t, q t (y t)))
    (by
      intro t ht
      apply LipschitzWith.lipschitzOnWith
      refine LipschitzWith.of_dist_le_mul (fun p p' => ?_)
      have hqt := hq t (sub t ht)
      rw [Prod.dist_eq, Prod.dist_eq]
      simp only [dist_eq_norm, NNReal.coe_mk]
      refine max_le ?_ ?_
      · calc ‖p.2 - p'.2‖ ≤ max ‖p.1 - p'.1‖ ‖p.2 - p'.2‖ := le_max_right _ _
          _ ≤ K * max ‖p.1 - p'.1‖ ‖p.2 - p'.2‖ := by
            have : 0 ≤ max ‖p.1 - p'.1‖ ‖p.2 - p'.2‖ := le_max_of_le_left (norm_nonneg _)
            nlinarith
      · exact (hqt _ _).trans (mul_le_mul_of_nonneg_left (le_max_left _ _) hK0))
    (fun t ht => ((hu t ht).continuousWithinAt.prodMk (hw t ht).continuousWithinAt))
    (fun t ht => (vderiv_right ht (hu t (sub t ht))).prodMk (vderiv_right ht (hw t (sub t ht))))
    (fun t ht => by
      rw [Prod.dist_eq]
      simp only [dist_eq_norm]
      exact max_le (h1 t (sub t ht)) (h2 t (sub t ht)))
    (fun _ _ => trivial)
    (fun t ht => ((hy t ht).continuousWithinAt.prodMk (hdy t ht).continuousWithinAt))
    (fun t ht => (vderiv_right ht (hy t (sub t ht))).prodMk (vderiv_right ht (hdy t (sub t ht))))
    (fun t ht => by simp) (fun _ _ => trivial) (by simp [i1, i2]) x hx
  rw [Prod.dist_eq] at key
  simp only [dist_eq_norm, NNReal.coe_mk, add_zero] at key
  have hb := gronwallBound_le (K := K) (ε := r) (x := x - a) (by linarith) hr (by linarith [hx.1])
  exact ⟨((le_max_left _ _).trans key).trans hb, ((le_max_right _ _).trans key).trans hb⟩

/-- Solutions grow at most exponentially. -/
theorem vsolution_bound {q : ℝ → X → X} {a b K : ℝ} {y dy : ℝ → X} (hK : 1 ≤ K) (hq : ∀ x ∈ Set.Icc a b, ∀ p, ‖q x p‖ ≤ K * ‖p‖)
    (hy : ∀ x ∈ Set.Icc a b, HasDerivWithinAt y (dy x) (Set.Icc a b) x)
    (hdy : ∀ x ∈ Set.Icc a b, HasDerivWithinAt dy (q x (y x)) (Set.Icc a b) x) {x : ℝ} (hx : x ∈ Set.Icc a b) :
    max ‖y x‖ ‖dy x‖ ≤ max ‖y a‖ ‖dy a‖ * Real.exp (K * (x - a)) := by
  have hK0 : (0 : ℝ) ≤ K := by linarith
  have sub : ∀ t ∈ Set.Ico a b, t ∈ Set.Icc a b := fun t ht => ⟨ht.1, ht.2.le⟩
  have key := norm_le_gronwallBound_of_norm_deriv_right_le (E := X × X) (f := fun t => (y t, dy t))
    (f' := fun t => (dy t, q t (y t))) (δ := max ‖y a‖ ‖dy a‖) (K := K) (ε := 0) (a := a) (b := b)
    (fun t ht => ((hy t ht).continuousWithinAt.prodMk (hdy t ht).continuousWithinAt))
    (fun t ht => (vderiv_right ht (hy t (sub t ht))).prodMk (vderiv_right ht (hdy t (sub t ht))))
    (by simp [Prod.norm_def])
    (fun t ht => by
      simp only [Prod.norm_def, add_zero]
      refine max_le ?_ ?_
      · have h1 := le_max_right ‖y t‖ ‖dy t‖
        have : 0 ≤ ‖dy t‖ := norm_nonneg _
        nlinarith
      · exact (hq t (sub t ht) _).trans (mul_le_mul_of_nonneg_left (le_max_left _ _) hK0)) x hx
  rw [gronwallBound_ε0] at key
  simpa [Prod.norm_def] using key

end

/-! ### Matrices -/
section mat
attribute [local instance] Matrix.linftyOpNormedAddCommGroup Matrix.linftyOpNormedSpace Matrix.linftyOpNormedRing Matrix.linftyOpNormedAlgebra
variable {m n r : ℕ}

/-- Derivatives of the entries give the derivative of the matrix. -/
theorem matrix_deriv {y : ℝ → Matrix (Fin m) (Fin r) ℝ} {y' : Matrix (Fin m) (Fin r) ℝ} {s : Set ℝ} {x : ℝ}
    (h : ∀ i j, HasDerivWithinAt (fun x => y x i j) (y' i j) s x) : HasDerivWithinAt y y' s x := by
  have h1 : HasDerivWithinAt (fun x => ∑ i, ∑ j, y x i j • Matrix.single i j (1 : ℝ)) (∑ i, ∑ j, y' i j • Matrix.single i j (1 : ℝ)) s x :=
    HasDerivWithinAt.fun_sum (fun i _ => HasDerivWithinAt.fun_sum (fun j _ => (h i j).smul_const _))
  have h2 : ∀ M : Matrix (Fin m) (Fin r) ℝ, ∑ i, ∑ j, M i j • Matrix.single i j (1 : ℝ) = M := by
    intro M
    conv_rhs => rw [Matrix.matrix_eq_sum_single M]
    simp
  simpa only [h2] using h1

/-- The derivative of `f(x) Y`. -/
theorem mul_right_deriv {f : ℝ → Matrix (Fin m) (Fin n) ℝ} {f' : Matrix (Fin m) (Fin n) ℝ} {s : Set ℝ} {x : ℝ} (h : HasDerivWithinAt f f' s x)
    (Y : Matrix (Fin n) (Fin r) ℝ) : HasDerivWithinAt (fun x => f x * Y) (f' * Y) s x := by
  let L : Matrix (Fin m) (Fin n) ℝ →L[ℝ] Matrix (Fin m) (Fin r) ℝ :=
    LinearMap.mkContinuous ⟨⟨fun a => a * Y, fun a b => Matrix.add_mul a b Y⟩, fun c a => Matrix.smul_mul c a Y⟩ ‖Y‖
      (fun a => by rw [mul_comm]; exact Matrix.linfty_opNorm_mul a Y)
  exact L.hasFDerivAt.comp_hasDerivWithinAt x h

theorem entry_le {Y : Matrix (Fin m) (Fin r) ℝ} (i : Fin m) (j : Fin r) : |Y i j| ≤ ‖Y‖ := by
  rw [Matrix.linfty_opNorm_def]
  have h1 : ∑ j, ‖Y i j‖₊ ≤ (Finset.univ : Finset (Fin m)).sup fun i => ∑ j, ‖Y i j‖₊ := Finset.le_sup (f := fun i => ∑ j, ‖Y i j‖₊) (Finset.mem_univ i)
  have h2 : ‖Y i j‖₊ ≤ ∑ j, ‖Y i j‖₊ := Finset.single_le_sum (f := fun j => ‖Y i j‖₊) (fun _ _ => zero_le) (Finset.mem_univ j)
  have h3 : ((‖Y i j‖₊ : NNReal) : ℝ) ≤ (((Finset.univ : Finset (Fin m)).sup fun i => ∑ j, ‖Y i j‖₊ : NNReal) : ℝ) := NNReal.coe_le_coe.mpr (h2.trans h1)
  simpa using h3

theorem norm_le_entries {Y : Matrix (Fin m) (Fin r) ℝ} {c : ℝ} (hc : 0 ≤ c) (h : ∀ i j, |Y i j| ≤ c) : ‖Y‖ ≤ r * c := by
  rw [Matrix.linfty_opNorm_def]
  have h1 : ((Finset.univ : Finset (Fin m)).sup fun i => ∑ j, ‖Y i j‖₊) ≤ (⟨r * c, by positivity⟩ : NNReal) := by
    refine Finset.sup_le (fun i _ => ?_)
    refine NNReal.coe_le_coe.mp ?_
    rw [NNReal.coe_sum]
    show ∑ j, ‖Y i j‖ ≤ r * c
    calc ∑ j, ‖Y i j‖ ≤ ∑ _j : Fin r, c := Finset.sum_le_sum (fun j _ => h i j)
      _ = r * c := by simp
  exact NNReal.coe_le_coe.mpr h1

end mat
end Verif
