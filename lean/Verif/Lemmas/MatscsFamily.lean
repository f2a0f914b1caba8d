import Verif.Lemmas.MatscsDualFlow
import Verif.Lemmas.OdeExist
import Mathlib.Analysis.Normed.Module.FiniteDimension
import Mathlib.Tactic.Module

/-!
# Existence of solutions of coupled systems and their dependence on the energy
-/
namespace Verif.NP
open Verif.MFormulas Verif.Matscs Verif.Mesh Verif

attribute [local instance] Matrix.linftyOpNormedAddCommGroup Matrix.linftyOpNormedSpace Matrix.linftyOpNormedRing Matrix.linftyOpNormedAlgebra

/-- bounded non-expanding maps that are the identity on a ball -/
def Clips (F : Type) [NormedAddCommGroup F] : Prop :=
  ∀ R : ℝ, 0 ≤ R → ∃ (φ : F → F) (R' : ℝ), 0 ≤ R' ∧ (∀ x x', ‖φ x - φ x'‖ ≤ ‖x - x'‖) ∧ (∀ x, ‖φ x‖ ≤ R') ∧ (∀ x, ‖φ x‖ ≤ ‖x‖) ∧ ∀ x, ‖x‖ ≤ R → φ x = x

theorem exists_affine {F : Type} [NormedAddCommGroup F] [NormedSpace ℝ F] [CompleteSpace F] (hc : Clips F) {A : ℝ → F → F} {K B a b : ℝ} (hab : a ≤ b) (hK : 0 ≤ K) (hB : 0 ≤ B)
    (lip : ∀ t ∈ Set.Icc a b, ∀ p p', ‖A t p - A t p'‖ ≤ K * ‖p - p'‖) (bd : ∀ t ∈ Set.Icc a b, ‖A t 0‖ ≤ B) (cont : ∀ p, ContinuousOn (fun t => A t p) (Set.Icc a b)) (p0 : F) :
    ∃ p : ℝ → F, p a = p0 ∧ ∀ t ∈ Set.Icc a b, HasDerivWithinAt p (A t (p t)) (Set.Icc a b) t := by
  have R0 : 0 ≤ gronwallBound ‖p0‖ K B (b - a) := by
    have := gronwallBound_mono (norm_nonneg p0) hB hK (show (0 : ℝ) ≤ b - a by linarith)
    rw [gronwallBound_x0] at this
    exact (norm_nonneg _).trans this
  obtain ⟨φ, R', hR', φ1, φ2, φ3, φ4⟩ := hc _ R0
  have size : ∀ t ∈ Set.Icc a b, ∀ p, ‖A t p‖ ≤ K * ‖p‖ + B := by
    intro t ht p
    have h1 := lip t ht p 0
    have h2 := norm_add_le_of_le h1 (bd t ht)
    rwa [sub_add_cancel, sub_zero] at h2
  have L0 : 0 ≤ K * R' + B := by positivity
  have pl : IsPicardLindelof (fun t p => A t (φ p)) (tmin := a) (tmax := b) ⟨a, le_rfl, hab⟩ p0 ⟨(K * R' + B) * (b - a), mul_nonneg L0 (by linarith)⟩ 0 ⟨K * R' + B, L0⟩ ⟨K, hK⟩ := by
    constructor
    · intro t ht
      apply LipschitzWith.lipschitzOnWith
      refine LipschitzWith.of_dist_le_mul (fun p p' => ?_)
      rw [dist_eq_norm, dist_eq_norm]
      exact (lip t ht _ _).trans (mul_le_mul_of_nonneg_left (φ1 p p') hK)
    · intro x _
      exact cont _
    · intro t ht x _
      change _ ≤ K * R' + B
      have := mul_le_mul_of_nonneg_left (φ2 x) hK
      exact (size t ht _).trans (by linarith)
    · change (K * R' + B) * max (b - a) (a - a) ≤ (K * R' + B) * (b - a) - 0
      rw [max_eq_left (by linarith), sub_zero]
  obtain ⟨α, hα0, hα⟩ := pl.exists_eq_forall_mem_Icc_hasDerivWithinAt₀
  simp only at hα0
  have bound := norm_le_gronwallBound_of_norm_deriv_right_le (f := α) (f' := fun t => A t (φ (α t))) (δ := ‖p0‖) (K := K) (ε := B) (a := a) (b := b)
    (fun t ht => (hα t ht).continuousWithinAt)
    (fun t ht => vderiv_right ht (hα t ⟨ht.1, ht.2.le⟩))
    (by rw [hα0])
    (fun t ht => by
      have := mul_le_mul_of_nonneg_left (φ3 (α t)) hK
      exact (size t ⟨ht.1, ht.2.le⟩ _).trans (by linarith))
  refine ⟨α, hα0, fun t ht => ?_⟩
  have h1 := (bound t ht).trans (gronwallBound_mono (norm_nonneg p0) hB hK (show t - a ≤ b - a by linarith [ht.2]))
  have h2 := hα t ht
  simp only [φ4 _ h1] at h2
  exact h2

theorem clips_matrix (m r : ℕ) : Clips (Matrix (Fin m) (Fin r) ℝ) := by
  intro R hR
  refine ⟨fun X => X.map (clip R), r * R, by positivity, ?_, ?_, ?_, ?_⟩
  · intro X Y
    rw [Matrix.linfty_opNorm_def, Matrix.linfty_opNorm_def, NNReal.coe_le_coe]
    refine Finset.sup_mono_fun (fun i _ => Finset.sum_le_sum (fun j _ => ?_))
    rw [← NNReal.coe_le_coe, coe_nnnorm, coe_nnnorm, Real.norm_eq_abs, Real.norm_eq_abs]
    exact clip_lip R _ _
  · intro X
    exact norm_le_entries hR (fun i j => clip_le hR _)
  · intro X
    rw [Matrix.linfty_opNorm_def, Matrix.linfty_opNorm_def, NNReal.coe_le_coe]
    refine Finset.sup_mono_fun (fun i _ => Finset.sum_le_sum (fun j _ => ?_))
    rw [← NNReal.coe_le_coe, coe_nnnorm, coe_nnnorm, Real.norm_eq_abs, Real.norm_eq_abs]
    exact clip_abs hR _
  · intro X hX
    ext i j
    exact clip_eq ((entry_le i j).trans hX)

theorem clips_prod {F G : Type} [NormedAddCommGroup F] [NormedAddCommGroup G] (h : Clips F) (h' : Clips G) : Clips (F × G) := by
  intro R hR
  obtain ⟨φ, a, a0, φ1, φ2, φ3, φ4⟩ := h R hR
  obtain ⟨ψ, b, b0, ψ1, ψ2, ψ3, ψ4⟩ := h' R hR
  refine ⟨fun p => (φ p.1, ψ p.2), max a b, le_max_of_le_left a0, ?_, ?_, ?_, ?_⟩
  · intro x y
    exact max_le ((φ1 _ _).trans (norm_fst_le (x - y))) ((ψ1 _ _).trans (norm_snd_le (x - y)))
  · intro x
    exact max_le_max (φ2 _) (ψ2 _)
  · intro x
    exact max_le_max (φ3 _) (ψ3 _)
  · intro x hx
    exact Prod.ext (φ4 _ ((norm_fst_le x).trans hx)) (ψ4 _ ((norm_snd_le x).trans hx))

section
variable {n r : ℕ}

theorem continuous_entries {m : ℕ} {f : ℝ → Matrix (Fin m) (Fin r) ℝ} {s : Set ℝ} (h : ∀ i j, ContinuousOn (fun x => f x i j) s) : ContinuousOn f s := by
  have h2 : ∀ M : Matrix (Fin m) (Fin r) ℝ, ∑ i, ∑ j, M i j • Matrix.single i j (1 : ℝ) = M := by
    intro M
    conv_rhs => rw [Matrix.matrix_eq_sum_single M]
    simp
  have h1 : ContinuousOn (fun x => ∑ i, ∑ j, f x i j • Matrix.single i j (1 : ℝ)) s :=
    continuousOn_finsetSum _ (fun i _ => continuousOn_finsetSum _ (fun j _ => (h i j).smul continuousOn_const))
  simpa only [h2] using h1

theorem sm_cont {M a b : ℝ} {w : ℝ → ℝ} (h : SmoothOn M w a b) : ContinuousOn w (Set.Icc a b) := by
  obtain ⟨D, h0, h1, -⟩ := h
  intro x hx
  exact ((h1 0 (by norm_num) x hx).continuousWithinAt).congr (fun t ht => (h0 t ht).symm) (h0 x hx).symm

/-- entries of a derivative -/
theorem deriv_entry {m : ℕ} {f : ℝ → Matrix (Fin m) (Fin r) ℝ} {f' : Matrix (Fin m) (Fin r) ℝ} {s : Set ℝ} {x : ℝ} (h : HasDerivWithinAt f f' s x) (i : Fin m) (j : Fin r) :
    HasDerivWithinAt (fun x => f x i j) (f' i j) s x := by
  let L : Matrix (Fin m) (Fin r) ℝ →ₗ[ℝ] ℝ := ⟨⟨fun A => A i j, fun _ _ => rfl⟩, fun _ _ => rfl⟩
  exact (LinearMap.toContinuousLinearMap L).hasFDerivAt.comp_hasDerivWithinAt x h

/-- The source problem on a sector has a solution. -/
theorem sector_exists {M E a b : ℝ} {V : ℝ → Mat n ℝ} {g : ℝ → Matrix (Fin n) (Fin r) ℝ} (hab : a ≤ b) (hM : 0 ≤ M) (hV : MSmoothOn M V a b) (hg : ∀ i j, ContinuousOn (fun x => g x i j) (Set.Icc a b))
    (u v : Matrix (Fin n) (Fin r) ℝ) : ∃ z dz, MEnergyOn V E a b g z dz ∧ z a = u ∧ dz a = v := by
  have : CompleteSpace (Matrix (Fin n) (Fin r) ℝ) := FiniteDimensional.complete ℝ _
  have gc := continuous_entries hg
  have vc : ContinuousOn V (Set.Icc a b) := continuous_entries (fun i j => sm_cont (hV i j))
  obtain ⟨B0, hB0⟩ := isCompact_Icc.exists_bound_of_continuousOn gc
  obtain ⟨K, hKd⟩ : ∃ K, K = lC n (M + |E|) := ⟨_, rfl⟩
  have hME : 0 ≤ M + |E| := by have := abs_nonneg E; linarith
  have hK : 1 ≤ K := by rw [hKd]; exact lC_one hME
  have hVE : ∀ t ∈ Set.Icc a b, ‖V t - E • (1 : Mat n ℝ)‖ ≤ K := by
    intro t ht
    have h1 : ‖V t‖ ≤ n * M := norm_le_entries hM (fun i j => (hV i j).bound ht)
    have h2 : ‖E • (1 : Mat n ℝ)‖ ≤ |E| * 1 := by
      rw [norm_smul, Real.norm_eq_abs]
      exact mul_le_mul_of_nonneg_left norm_one_le (abs_nonneg _)
    have h3 := norm_sub_le_of_le h1 h2
    rw [hKd]; unfold lC
    nlinarith [mul_nonneg (Nat.cast_nonneg (α := ℝ) n) (abs_nonneg E)]
  obtain ⟨p, p0, hp⟩ := exists_affine (clips_prod (clips_matrix n r) (clips_matrix n r)) (A := fun t p => (p.2, (V t - E • (1 : Mat n ℝ)) * p.1 - g t)) (K := K) (B := max 0 B0) hab (by linarith) (le_max_left _ _)
    (fun t ht p p' => by
      rw [Prod.mk_sub_mk, sub_sub_sub_cancel_right, ← Matrix.mul_sub]
      have hn := norm_nonneg (p - p')
      refine max_le ((norm_snd_le (p - p')).trans (by nlinarith)) ?_
      exact (Matrix.linfty_opNorm_mul _ _).trans (mul_le_mul (hVE t ht) (norm_fst_le (p - p')) (norm_nonneg _) (by linarith)))
    (fun t ht => by
      refine max_le ?_ ?_
      · simp
      · simp only [Prod.fst_zero, Matrix.mul_zero, zero_sub, norm_neg]
        exact (hB0 t ht).trans (le_max_right _ _))
    (fun p => by
      refine continuousOn_const.prodMk (ContinuousOn.sub ?_ gc)
      refine continuous_entries (fun i j => ?_)
      simp only [Matrix.mul_apply]
      refine continuousOn_finsetSum _ (fun k _ => ContinuousOn.mul ?_ continuousOn_const)
      exact (sm_cont (hV i k)).sub continuousOn_const) (u, v)
  refine ⟨fun t => (p t).1, fun t => (p t).2, ⟨fun t ht i j => ?_, fun t ht i j => ?_⟩, by simp only [p0], by simp only [p0]⟩
  · exact deriv_entry (hp t ht).fst i j
  · exact deriv_entry (hp t ht).snd i j


theorem src_fwd {M E B a b : ℝ} {V : ℝ → Mat n ℝ} {g z dz : ℝ → Matrix (Fin n) (Fin r) ℝ} (hV : MSmoothOn M V a b) (hM : 0 ≤ M) (hE : |E| ≤ M) (hB : 0 ≤ B) (hg : ∀ t ∈ Set.Icc a b, ‖g t‖ ≤ B)
    (hz : MEnergyOn V E a b g z dz) {x : ℝ} (hx : x ∈ Set.Icc a b) : ‖(z x, dz x)‖ ≤ Real.exp (lC n M * (x - a)) * (‖(z a, dz a)‖ + B * (x - a)) := by
  have hL := lC_one (n := n) hM
  have D : ∀ t ∈ Set.Icc a b, HasDerivWithinAt (fun t => (z t, dz t)) (dz t, (V t - E • (1 : Mat n ℝ)) * z t - g t) (Set.Icc a b) t := fun t ht =>
    (matrix_deriv (fun i j => hz.d1 t ht i j)).prodMk (matrix_deriv (fun i j => hz.d2 t ht i j))
  have key := norm_le_gronwallBound_of_norm_deriv_right_le (f := fun t => (z t, dz t)) (f' := fun t => (dz t, (V t - E • (1 : Mat n ℝ)) * z t - g t)) (δ := ‖(z a, dz a)‖) (K := lC n M) (ε := B) (a := a) (b := b)
    (fun t ht => (D t ht).continuousWithinAt) (fun t ht => vderiv_right ht (D t ⟨ht.1, ht.2.le⟩)) le_rfl
    (fun t ht => by
      have ht' : t ∈ Set.Icc a b := ⟨ht.1, ht.2.le⟩
      have h1 := norm_fst_le (z t, dz t)
      have h2 := norm_snd_le (z t, dz t)
      have h0 := norm_nonneg (z t, dz t)
      refine max_le (h2.trans (by nlinarith)) ?_
      refine norm_sub_le_of_le ((Matrix.linfty_opNorm_mul _ _).trans (mul_le_mul (pot_le hV hM hE ht') h1 (norm_nonneg _) (by linarith))) (hg t ht')) x hx
  have e : gronwallBound ‖(z a, dz a)‖ (lC n M) B (x - a) = ‖(z a, dz a)‖ * Real.exp (lC n M * (x - a)) + gronwallBound 0 (lC n M) B (x - a) := by
    rw [gronwallBound_of_K_ne_0 (by linarith), gronwallBound_of_K_ne_0 (by linarith)]; ring
  rw [e] at key
  have := gronwallBound_le (K := lC n M) (ε := B) (x := x - a) (by linarith) hB (by linarith [hx.1])
  refine key.trans ((add_le_add le_rfl this).trans (le_of_eq (by ring)))

theorem src_reflect {V : ℝ → Mat n ℝ} {E a b : ℝ} {g z dz : ℝ → Matrix (Fin n) (Fin r) ℝ} (h : MEnergyOn V E a b g z dz) :
    MEnergyOn (fun x => V (a + b - x)) E a b (fun x => g (a + b - x)) (fun x => z (a + b - x)) (fun x => -dz (a + b - x)) := by
  have hm : Set.MapsTo (fun x => a + b - x) (Set.Icc a b) (Set.Icc a b) := fun x hx => ⟨by linarith [hx.2], by linarith [hx.1]⟩
  have hd : ∀ x, HasDerivWithinAt (fun x => a + b - x) (-1) (Set.Icc a b) x := fun x => ((hasDerivAt_id x).const_sub (a + b)).hasDerivWithinAt
  refine ⟨?_, ?_⟩
  · intro x hx i j
    have := (h.d1 _ (hm hx) i j).comp x (hd x) hm
    simpa [Function.comp_def] using this
  · intro x hx i j
    have := ((h.d2 _ (hm hx) i j).comp x (hd x) hm).fun_neg
    simpa [Function.comp_def] using this

theorem src_mono {V : ℝ → Mat n ℝ} {E a b c d : ℝ} {g z dz : ℝ → Matrix (Fin n) (Fin r) ℝ} (h : MEnergyOn V E a b g z dz) (h1 : a ≤ c) (h2 : d ≤ b) : MEnergyOn V E c d g z dz :=
  ⟨fun x hx i j => (h.d1 x ⟨h1.trans hx.1, hx.2.trans h2⟩ i j).mono (Set.Icc_subset_Icc h1 h2),
    fun x hx i j => (h.d2 x ⟨h1.trans hx.1, hx.2.trans h2⟩ i j).mono (Set.Icc_subset_Icc h1 h2)⟩

theorem src_bwd {M E B a b : ℝ} {V : ℝ → Mat n ℝ} {g z dz : ℝ → Matrix (Fin n) (Fin r) ℝ} (hV : MSmoothOn M V a b) (hM : 0 ≤ M) (hE : |E| ≤ M) (hB : 0 ≤ B) (hg : ∀ t ∈ Set.Icc a b, ‖g t‖ ≤ B)
    (hz : MEnergyOn V E a b g z dz) {x : ℝ} (hx : x ∈ Set.Icc a b) : ‖(z a, dz a)‖ ≤ Real.exp (lC n M * (x - a)) * (‖(z x, dz x)‖ + B * (x - a)) := by
  have hV' : MSmoothOn M (fun t => V (a + x - t)) a x := fun i j => ((hV i j).mono le_rfl hx.2).reflect
  have := src_fwd hV' hM hE hB (fun t ht => hg _ ⟨by linarith [ht.2], by linarith [ht.1, hx.2]⟩) (src_reflect (src_mono hz le_rfl hx.2)) (x := x) ⟨hx.1, le_rfl⟩
  simp only [add_sub_cancel_right, add_sub_cancel_left, Prod.norm_mk, norm_neg] at this
  simp only [Prod.norm_mk]
  exact this

theorem src_mesh {M E B : ℝ} (hM : 0 ≤ M) (hE : |E| ≤ M) (hB : 0 ≤ B) {W : Sec ℝ → ℝ → Mat n ℝ} {g z dz : ℝ → Matrix (Fin n) (Fin r) ℝ} :
    ∀ {l : List (Sec ℝ)} {a b : ℝ}, Chn a l b → (∀ s ∈ l, s.min < s.max) → (∀ s ∈ l, MSmoothOn M (W s) s.min s.max) → MEnergyMesh W E l g z dz → (∀ t ∈ Set.Icc a b, ‖g t‖ ≤ B) → ∀ x ∈ Set.Icc a b,
      ‖(z x, dz x)‖ ≤ Real.exp (lC n M * (x - a)) * (‖(z a, dz a)‖ + B * (x - a)) ∧ ‖(z a, dz a)‖ ≤ Real.exp (lC n M * (x - a)) * (‖(z x, dz x)‖ + B * (x - a))
  | [], a, b, hc, _, _, _, _, x, hx => by
    simp only [Chn] at hc
    have : x = a := by linarith [hx.1, hx.2]
    simp [this]
  | s :: l, a, b, hc, hp, hV, hy, hg, x, hx => by
    have hs := hp s (by simp)
    have ha : s.min = a := hc.1
    have hL := lC_one (n := n) hM
    have hb := (chn_range hc.2 (fun t ht => hp t (List.mem_cons_of_mem _ ht))).1
    have hg1 : ∀ t ∈ Set.Icc s.min s.max, ‖g t‖ ≤ B := fun t ht => hg t ⟨by linarith [ht.1], by linarith [ht.2]⟩
    have key : ∀ t ∈ Set.Icc s.min s.max, ‖(z t, dz t)‖ ≤ Real.exp (lC n M * (t - a)) * (‖(z a, dz a)‖ + B * (t - a)) ∧ ‖(z a, dz a)‖ ≤ Real.exp (lC n M * (t - a)) * (‖(z t, dz t)‖ + B * (t - a)) := by
      intro t ht
      rw [← ha]
      exact ⟨src_fwd (hV s (by simp)) hM hE hB hg1 (hy s (by simp)) ht, src_bwd (hV s (by simp)) hM hE hB hg1 (hy s (by simp)) ht⟩
    rcases le_or_gt x s.max with h | h
    · exact key x ⟨by linarith [hx.1], h⟩
    · obtain ⟨i1, i2⟩ := src_mesh hM hE hB hc.2 (fun t ht => hp t (List.mem_cons_of_mem _ ht)) (fun t ht => hV t (List.mem_cons_of_mem _ ht)) (fun t ht => hy t (List.mem_cons_of_mem _ ht))
        (fun t ht => hg t ⟨by linarith [ht.1], ht.2⟩) x ⟨h.le, hx.2⟩
      obtain ⟨k1, k2⟩ := key s.max ⟨hs.le, le_rfl⟩
      have e1 : Real.exp (lC n M * (x - a)) = Real.exp (lC n M * (x - s.max)) * Real.exp (lC n M * (s.max - a)) := by rw [← Real.exp_add]; congr 1; ring
      have p1 := Real.exp_pos (lC n M * (x - s.max))
      have p2 : 1 ≤ Real.exp (lC n M * (s.max - a)) := Real.one_le_exp (mul_nonneg (by linarith) (by linarith))
      have p3 : 1 ≤ Real.exp (lC n M * (x - s.max)) := Real.one_le_exp (mul_nonneg (by linarith) (by linarith))
      have q1 : 0 ≤ B * (x - s.max) := mul_nonneg hB (by linarith)
      have q2 : 0 ≤ B * (s.max - a) := mul_nonneg hB (by linarith)
      have e2 : B * (x - a) = B * (x - s.max) + B * (s.max - a) := by ring
      rw [e1, e2]
      generalize Real.exp (lC n M * (x - s.max)) = P at *
      generalize Real.exp (lC n M * (s.max - a)) = Q at *
      generalize B * (x - s.max) = b1 at *
      generalize B * (s.max - a) = b2 at *
      have m1 := mul_le_mul_of_nonneg_left k1 p1.le
      have m2 := mul_le_mul_of_nonneg_left i2 (by linarith : 0 ≤ Q)
      have r1 := mul_le_mul_of_nonneg_right p2 (mul_nonneg p1.le q1)
      have r2 := mul_le_mul_of_nonneg_right p3 (mul_nonneg (by linarith : 0 ≤ Q) q2)
      constructor <;> linarith

/-- Growth between any two points of a mesh, for all sources and energies. -/
theorem src_any {M : ℝ} (hM : 0 ≤ M) {W : Sec ℝ → ℝ → Mat n ℝ} {l : List (Sec ℝ)} {a b : ℝ} (hc : Chn a l b) (hp : ∀ s ∈ l, s.min < s.max) (hV : ∀ s ∈ l, MSmoothOn M (W s) s.min s.max) :
    ∃ C : ℝ, 0 ≤ C ∧ ∀ (E B : ℝ) (g z dz : ℝ → Matrix (Fin n) (Fin r) ℝ), |E| ≤ M → 0 ≤ B → MEnergyMesh W E l g z dz → (∀ t ∈ Set.Icc a b, ‖g t‖ ≤ B) → ∀ x0 ∈ Set.Icc a b, ∀ x ∈ Set.Icc a b,
      ‖(z x, dz x)‖ ≤ C * (‖(z x0, dz x0)‖ + B) := by
  have hL := lC_one (n := n) hM
  have hab := (chn_range hc hp).1
  obtain ⟨D, hD⟩ : ∃ D, D = b - a := ⟨_, rfl⟩
  have D0 : 0 ≤ D := by linarith
  obtain ⟨P, hP⟩ : ∃ P, P = Real.exp (lC n M * D) := ⟨_, rfl⟩
  have P1 : 1 ≤ P := by rw [hP]; exact Real.one_le_exp (mul_nonneg (by linarith) D0)
  refine ⟨P * P * (1 + 2 * D), by positivity, ?_⟩
  intro E B g z dz hE hB hz hg x0 h0 x hx
  have k1 := (src_mesh hM hE hB hc hp hV hz hg x hx).1
  have k2 := (src_mesh hM hE hB hc hp hV hz hg x0 h0).2
  have e : ∀ t ∈ Set.Icc a b, Real.exp (lC n M * (t - a)) ≤ P ∧ B * (t - a) ≤ B * D ∧ 0 ≤ B * (t - a) := fun t ht =>
    ⟨by rw [hP]; exact Real.exp_le_exp.mpr (mul_le_mul_of_nonneg_left (by linarith [ht.2]) (by linarith)), mul_le_mul_of_nonneg_left (by linarith [ht.2]) hB, mul_nonneg hB (by linarith [ht.1])⟩
  have n0 := norm_nonneg (z x0, dz x0)
  have na := norm_nonneg (z a, dz a)
  have BD : 0 ≤ B * D := mul_nonneg hB D0
  have m2 : ‖(z a, dz a)‖ ≤ P * (‖(z x0, dz x0)‖ + B * D) := k2.trans (mul_le_mul (e x0 h0).1 (by linarith [(e x0 h0).2.1]) (by linarith [(e x0 h0).2.2]) (by linarith))
  have m1 : ‖(z x, dz x)‖ ≤ P * (‖(z a, dz a)‖ + B * D) := k1.trans (mul_le_mul (e x hx).1 (by linarith [(e x hx).2.1]) (by linarith [(e x hx).2.2]) (by linarith))
  have m3 := mul_le_mul_of_nonneg_left m2 (by linarith : 0 ≤ P)
  have m4 : P * (B * D) ≤ P * P * (B * D) := by nlinarith [mul_nonneg (by linarith : 0 ≤ P) BD]
  have m5 : 0 ≤ P * P * B := by positivity
  have m6 : 0 ≤ P * P * (2 * D) * ‖(z x0, dz x0)‖ := by positivity
  linarith

theorem src_zero {V : ℝ → Mat n ℝ} {E a b : ℝ} {y dy : ℝ → Matrix (Fin n) (Fin r) ℝ} (h : MSolvesOn V E a b y dy) : MEnergyOn V E a b (fun _ => 0) y dy :=
  ⟨h.d1, fun x hx i j => by rw [sub_zero]; exact h.d2 x hx i j⟩

theorem zero_src {V : ℝ → Mat n ℝ} {E a b : ℝ} {y dy : ℝ → Matrix (Fin n) (Fin r) ℝ} (h : MEnergyOn V E a b (fun _ => 0) y dy) : MSolvesOn V E a b y dy :=
  ⟨h.d1, fun x hx i j => by have := h.d2 x hx i j; rwa [sub_zero] at this⟩

/-- Linear combinations. -/
theorem src_comb {V : ℝ → Mat n ℝ} {E a b : ℝ} {g z dz g' z' dz' : ℝ → Matrix (Fin n) (Fin r) ℝ} (h : MEnergyOn V E a b g z dz) (h' : MEnergyOn V E a b g' z' dz') (c : ℝ) :
    MEnergyOn V E a b (fun x => g x + c • g' x) (fun x => z x + c • z' x) (fun x => dz x + c • dz' x) := by
  refine ⟨fun x hx i j => ?_, fun x hx i j => ?_⟩
  · exact (h.d1 x hx i j).add ((h'.d1 x hx i j).const_mul c)
  · refine ((h.d2 x hx i j).add ((h'.d2 x hx i j).const_mul c)).congr_deriv ?_
    simp only [Matrix.mul_add, Matrix.mul_smul, Matrix.sub_apply, Matrix.add_apply, Matrix.smul_apply, smul_eq_mul]
    ring

/-- A solution for another energy, as a source problem. -/
theorem src_energy {V : ℝ → Mat n ℝ} {E F a b : ℝ} {y dy : ℝ → Matrix (Fin n) (Fin r) ℝ} (h : MSolvesOn V F a b y dy) : MEnergyOn V E a b (fun x => (F - E) • y x) y dy := by
  refine ⟨h.d1, fun x hx i j => (h.d2 x hx i j).congr_deriv ?_⟩
  have e : (V x - F • (1 : Mat n ℝ)) * y x = (V x - E • (1 : Mat n ℝ)) * y x - (F - E) • y x := by
    rw [Matrix.sub_mul, Matrix.sub_mul, Matrix.smul_mul, Matrix.smul_mul, Matrix.one_mul, sub_smul]; abel
  rw [e]

theorem src_congr {V : ℝ → Mat n ℝ} {E a b : ℝ} {g z dz g' z' dz' : ℝ → Matrix (Fin n) (Fin r) ℝ} (h : MEnergyOn V E a b g z dz) (h0 : ∀ x ∈ Set.Icc a b, g' x = g x) (h1 : ∀ x ∈ Set.Icc a b, z' x = z x)
    (h2 : ∀ x ∈ Set.Icc a b, dz' x = dz x) : MEnergyOn V E a b g' z' dz' := by
  refine ⟨fun x hx i j => ?_, fun x hx i j => ?_⟩
  · rw [h2 x hx]
    exact (h.d1 x hx i j).congr (fun t ht => by rw [h1 t ht]) (by rw [h1 x hx])
  · rw [h1 x hx, h0 x hx]
    exact (h.d2 x hx i j).congr (fun t ht => by rw [h2 t ht]) (by rw [h2 x hx])

/-- Existence on the mesh from the left end. -/
theorem src_exists {M E : ℝ} (hM : 0 ≤ M) {W : Sec ℝ → ℝ → Mat n ℝ} {g : ℝ → Matrix (Fin n) (Fin r) ℝ} : ∀ {l : List (Sec ℝ)} {a b : ℝ}, Chn a l b → (∀ s ∈ l, s.min < s.max) →
    (∀ s ∈ l, MSmoothOn M (W s) s.min s.max) → (∀ s ∈ l, ∀ i j, ContinuousOn (fun x => g x i j) (Set.Icc s.min s.max)) → ∀ u v : Matrix (Fin n) (Fin r) ℝ, ∃ z dz, MEnergyMesh W E l g z dz ∧ z a = u ∧ dz a = v
  | [], a, b, _, _, _, _, u, v => ⟨fun _ => u, fun _ => v, by intro s hs; simp at hs, rfl, rfl⟩
  | s :: l, a, b, hc, hp, hV, hg, u, v => by
    have e := hc.1
    have hs := hp s (by simp)
    obtain ⟨y1, dy1, h1, i1, i2⟩ := sector_exists (E := E) hs.le hM (hV s (by simp)) (hg s (by simp)) u v
    obtain ⟨y2, dy2, h2, j1, j2⟩ := src_exists (E := E) hM hc.2 (fun t ht => hp t (List.mem_cons_of_mem _ ht)) (fun t ht => hV t (List.mem_cons_of_mem _ ht)) (fun t ht => hg t (List.mem_cons_of_mem _ ht)) (y1 s.max) (dy1 s.max)
    refine ⟨fun x => if x ≤ s.max then y1 x else y2 x, fun x => if x ≤ s.max then dy1 x else dy2 x, ?_, ?_, ?_⟩
    · intro t ht
      rcases List.mem_cons.mp ht with rfl | ht
      · exact src_congr h1 (fun _ _ => rfl) (fun x hx => if_pos hx.2) (fun x hx => if_pos hx.2)
      · have r := (chn_range hc.2 (fun t ht => hp t (List.mem_cons_of_mem _ ht))).2 t ht
        refine src_congr (h2 t ht) (fun _ _ => rfl) (fun x hx => ?_) (fun x hx => ?_)
        · have : s.max ≤ x := r.1.trans hx.1
          rcases this.eq_or_lt with q | q
          · subst q; simp [j1]
          · exact if_neg (not_le.mpr q)
        · have : s.max ≤ x := r.1.trans hx.1
          rcases this.eq_or_lt with q | q
          · subst q; simp [j2]
          · exact if_neg (not_le.mpr q)
    · rw [← e]; simp [hs.le, i1]
    · rw [← e]; simp [hs.le, i2]

/-- Existence with given values at any point. -/
theorem src_exists_at {M E : ℝ} (hM : 0 ≤ M) (hE : |E| ≤ M) {W : Sec ℝ → ℝ → Mat n ℝ} {g : ℝ → Matrix (Fin n) (Fin r) ℝ} {l : List (Sec ℝ)} {a b : ℝ} (hc : Chn a l b) (hp : ∀ s ∈ l, s.min < s.max)
    (hV : ∀ s ∈ l, MSmoothOn M (W s) s.min s.max) (hg : ∀ s ∈ l, ∀ i j, ContinuousOn (fun x => g x i j) (Set.Icc s.min s.max)) {x0 : ℝ} (h0 : x0 ∈ Set.Icc a b) (u v : Matrix (Fin n) (Fin r) ℝ) :
    ∃ z dz, MEnergyMesh W E l g z dz ∧ z x0 = u ∧ dz x0 = v := by
  have ha : a ∈ Set.Icc a b := ⟨le_rfl, (chn_range hc hp).1⟩
  obtain ⟨C, C0, hC⟩ := src_any (r := r) hM hc hp hV
  have hom : ∀ p : Matrix (Fin n) (Fin r) ℝ × Matrix (Fin n) (Fin r) ℝ, ∃ q : (ℝ → Matrix (Fin n) (Fin r) ℝ) × (ℝ → Matrix (Fin n) (Fin r) ℝ), MEnergyMesh W E l (fun _ => 0) q.1 q.2 ∧ q.1 a = p.1 ∧ q.2 a = p.2 := by
    intro p
    obtain ⟨z, dz, h1, h2, h3⟩ := src_exists (E := E) (g := fun _ => (0 : Matrix (Fin n) (Fin r) ℝ)) hM hc hp hV (fun s hs i j => continuousOn_const) p.1 p.2
    exact ⟨(z, dz), h1, h2, h3⟩
  choose q hq q1 q2 using hom
  have uniq : ∀ {z dz z' dz' : ℝ → Matrix (Fin n) (Fin r) ℝ}, MEnergyMesh W E l (fun _ => 0) z dz → MEnergyMesh W E l (fun _ => 0) z' dz' → ∀ x ∈ Set.Icc a b, z x = z' x → dz x = dz' x → ∀ t ∈ Set.Icc a b, z t = z' t ∧ dz t = dz' t := by
    intro z dz z' dz' h h' x hx e1 e2 t ht
    have k := hC E 0 _ _ _ hE le_rfl (fun s hs => src_comb (h s hs) (h' s hs) (-1)) (fun t _ => by simp) x hx t ht
    simp only [e1, e2] at k
    rw [show ((z' x + (-1 : ℝ) • z' x, dz' x + (-1 : ℝ) • dz' x) : Matrix (Fin n) (Fin r) ℝ × Matrix (Fin n) (Fin r) ℝ) = 0 by simp, norm_zero, zero_add, mul_zero] at k
    have k2 := norm_le_zero_iff.mp k
    have k3 := congrArg Prod.fst k2
    have k4 := congrArg Prod.snd k2
    simp only [Prod.fst_zero, Prod.snd_zero, neg_smul, one_smul] at k3 k4
    exact ⟨by rwa [← sub_eq_add_neg, sub_eq_zero] at k3, by rwa [← sub_eq_add_neg, sub_eq_zero] at k4⟩
  have comb : ∀ (p p' : Matrix (Fin n) (Fin r) ℝ × Matrix (Fin n) (Fin r) ℝ) (c : ℝ), (q (p + c • p')).1 x0 = (q p).1 x0 + c • (q p').1 x0 ∧ (q (p + c • p')).2 x0 = (q p).2 x0 + c • (q p').2 x0 := by
    intro p p' c
    refine uniq (hq _) (fun s hs => src_congr (src_comb (hq p s hs) (hq p' s hs) c) (fun _ _ => by simp) (fun _ _ => rfl) (fun _ _ => rfl)) a ha ?_ ?_ x0 h0
    · rw [q1, q1, q1]; rfl
    · rw [q2, q2, q2]; rfl
  let T : (Matrix (Fin n) (Fin r) ℝ × Matrix (Fin n) (Fin r) ℝ) →ₗ[ℝ] (Matrix (Fin n) (Fin r) ℝ × Matrix (Fin n) (Fin r) ℝ) :=
    { toFun := fun p => ((q p).1 x0, (q p).2 x0)
      map_add' := fun p p' => by
        have := comb p p' 1
        simp only [one_smul] at this
        exact Prod.ext this.1 this.2
      map_smul' := fun c p => by
        have z0 := comb 0 0 (-1)
        simp only [smul_zero, add_zero, neg_smul, one_smul, add_neg_cancel] at z0
        have := comb 0 p c
        rw [zero_add, z0.1, z0.2, zero_add, zero_add] at this
        exact Prod.ext this.1 this.2 }
  have inj : Function.Injective T := by
    intro p p' h
    have h1 := congrArg Prod.fst h
    have h2 := congrArg Prod.snd h
    have := uniq (hq p) (hq p') x0 h0 h1 h2 a ha
    rw [q1, q1, q2, q2] at this
    exact Prod.ext this.1 this.2
  obtain ⟨w, dw, hw, -, -⟩ := src_exists (E := E) hM hc hp hV hg 0 0
  obtain ⟨p, hpe⟩ := LinearMap.surjective_of_injective inj (u - w x0, v - dw x0)
  have f1 := congrArg Prod.fst hpe
  have f2 := congrArg Prod.snd hpe
  refine ⟨fun x => w x + (1 : ℝ) • (q p).1 x, fun x => dw x + (1 : ℝ) • (q p).2 x, fun s hs => src_congr (src_comb (hw s hs) (hq p s hs) 1) (fun _ _ => by simp) (fun _ _ => rfl) (fun _ _ => rfl), ?_, ?_⟩
  · simp only [one_smul]; rw [show (q p).1 x0 = u - w x0 from f1]; abel
  · simp only [one_smul]; rw [show (q p).2 x0 = v - dw x0 from f2]; abel


open Asymptotics Topology in
/-- The derivative with respect to the energy of a family of solutions. -/
theorem family_hasDeriv {M E : ℝ} (hM : 0 ≤ M) (hE : |E| ≤ M) {W : Sec ℝ → ℝ → Mat n ℝ} {l : List (Sec ℝ)} {a b : ℝ} (hc : Chn a l b) (hp : ∀ s ∈ l, s.min < s.max)
    (hV : ∀ s ∈ l, MSmoothOn M (W s) s.min s.max) {f df : ℝ → ℝ → Matrix (Fin n) (Fin r) ℝ} (hf : ∀ F, MSolvesMesh W F l (f F) (df F)) {z dz : ℝ → Matrix (Fin n) (Fin r) ℝ}
    (hz : MEnergyMesh W E l (f E) z dz) {x0 : ℝ} (h0 : x0 ∈ Set.Icc a b) (d : HasDerivAt (fun F => (f F x0, df F x0)) (z x0, dz x0) E) {x : ℝ} (hx : x ∈ Set.Icc a b) :
    HasDerivAt (fun F => (f F x, df F x)) (z x, dz x) E := by
  have hV1 : ∀ s ∈ l, MSmoothOn (M + 1) (W s) s.min s.max := by
    intro s hs i j
    obtain ⟨D, e0, e1, e2⟩ := hV s hs i j
    exact ⟨D, e0, e1, fun k hk t ht => (e2 k hk t ht).trans (by linarith)⟩
  obtain ⟨C, C0, hC⟩ := src_any (r := r) (by linarith : 0 ≤ M + 1) hc hp hV1
  have hE1 : |E| ≤ M + 1 := by linarith
  have d' := hasDerivAt_iff_isLittleO.mp d
  have key : ∀ F, |F - E| ≤ 1 → ‖(f F x, df F x) - (f E x, df E x) - (F - E) • (z x, dz x)‖ ≤
      C * ‖(f F x0, df F x0) - (f E x0, df E x0) - (F - E) • (z x0, dz x0)‖ + (F - E) * ((F - E) / |F - E| * (C * (C * (‖(f F x0, df F x0) - (f E x0, df E x0)‖ + |F - E| * (C * ‖(f F x0, df F x0)‖))))) := by
    intro F hF
    have hF1 : |F| ≤ M + 1 := by
      have : F = E + (F - E) := by ring
      rw [this]; exact (abs_add_le _ _).trans (by linarith)
    have b1 : ∀ t ∈ Set.Icc a b, ‖(f F t, df F t)‖ ≤ C * ‖(f F x0, df F x0)‖ := fun t ht => by
      have := hC F 0 _ _ _ hF1 le_rfl (fun s hs => src_zero (hf F s hs)) (fun t _ => by simp) x0 h0 t ht
      rwa [add_zero] at this
    have sv : ∀ s ∈ l, MEnergyOn (W s) E s.min s.max (fun t => (F - E) • f F t) (fun t => f F t + (-1 : ℝ) • f E t) (fun t => df F t + (-1 : ℝ) • df E t) := fun s hs =>
      src_congr (src_comb (src_energy (E := E) (hf F s hs)) (src_zero (hf E s hs)) (-1)) (fun t _ => by simp) (fun _ _ => rfl) (fun _ _ => rfl)
    have b2 : ∀ t ∈ Set.Icc a b, ‖(f F t + (-1 : ℝ) • f E t, df F t + (-1 : ℝ) • df E t)‖ ≤ C * (‖(f F x0 + (-1 : ℝ) • f E x0, df F x0 + (-1 : ℝ) • df E x0)‖ + |F - E| * (C * ‖(f F x0, df F x0)‖)) :=
      fun t ht => hC E _ _ _ _ hE1 (by positivity) sv (fun t ht => by
        rw [norm_smul, Real.norm_eq_abs]
        exact mul_le_mul_of_nonneg_left ((norm_fst_le (f F t, df F t)).trans (b1 t ht)) (abs_nonneg _)) x0 h0 t ht
    have sw : ∀ s ∈ l, MEnergyOn (W s) E s.min s.max (fun t => (F - E) • (f F t + (-1 : ℝ) • f E t)) (fun t => (f F t + (-1 : ℝ) • f E t) + (-(F - E)) • z t) (fun t => (df F t + (-1 : ℝ) • df E t) + (-(F - E)) • dz t) := fun s hs =>
      src_congr (src_comb (sv s hs) (hz s hs) (-(F - E))) (fun t _ => by rw [smul_add, smul_comm (F - E) (-1 : ℝ), neg_one_smul, neg_smul]) (fun _ _ => rfl) (fun _ _ => rfl)
    have b3 := hC E (|F - E| * (C * (‖(f F x0 + (-1 : ℝ) • f E x0, df F x0 + (-1 : ℝ) • df E x0)‖ + |F - E| * (C * ‖(f F x0, df F x0)‖)))) _ _ _ hE1 (by positivity) sw (fun t ht => by
        rw [norm_smul, Real.norm_eq_abs]
        exact mul_le_mul_of_nonneg_left ((norm_fst_le (f F t + (-1 : ℝ) • f E t, df F t + (-1 : ℝ) • df E t)).trans (b2 t ht)) (abs_nonneg _)) x0 h0 x hx
    have e1 : ∀ t, ((f F t, df F t) - (f E t, df E t) - (F - E) • (z t, dz t) : Matrix (Fin n) (Fin r) ℝ × Matrix (Fin n) (Fin r) ℝ) =
        ((f F t + (-1 : ℝ) • f E t) + (-(F - E)) • z t, (df F t + (-1 : ℝ) • df E t) + (-(F - E)) • dz t) := fun t => by
      refine Prod.ext ?_ ?_
      · show f F t - f E t - (F - E) • z t = f F t + (-1 : ℝ) • f E t + (-(F - E)) • z t
        module
      · show df F t - df E t - (F - E) • dz t = df F t + (-1 : ℝ) • df E t + (-(F - E)) • dz t
        module
    have e2 : ((f F x0, df F x0) - (f E x0, df E x0) : Matrix (Fin n) (Fin r) ℝ × Matrix (Fin n) (Fin r) ℝ) = (f F x0 + (-1 : ℝ) • f E x0, df F x0 + (-1 : ℝ) • df E x0) := by
      refine Prod.ext ?_ ?_ <;> simp [sub_eq_add_neg]
    rw [e1, e1, e2]
    refine b3.trans (le_of_eq ?_)
    have e3 : (F - E) * ((F - E) / |F - E|) = |F - E| := by
      rcases eq_or_ne (F - E) 0 with q | q
      · rw [q]; simp
      · rw [mul_div_assoc', div_eq_iff (abs_ne_zero.mpr q), abs_mul_abs_self]
    rw [← mul_assoc (F - E), e3]
    ring
  refine hasDerivAt_iff_isLittleO.mpr ?_
  have ev : ∀ᶠ F in 𝓝 E, |F - E| ≤ 1 := by
    have : Filter.Tendsto (fun F : ℝ => |F - E|) (𝓝 E) (𝓝 |E - E|) := ((continuous_id.sub continuous_const).abs).tendsto E
    rw [sub_self, abs_zero] at this
    exact (this.eventually (gt_mem_nhds one_pos)).mono (fun F h => h.le)
  have bigO : (fun F => (f F x, df F x) - (f E x, df E x) - (F - E) • (z x, dz x)) =O[𝓝 E] fun F => C * ‖(f F x0, df F x0) - (f E x0, df E x0) - (F - E) • (z x0, dz x0)‖ +
      (F - E) * ((F - E) / |F - E| * (C * (C * (‖(f F x0, df F x0) - (f E x0, df E x0)‖ + |F - E| * (C * ‖(f F x0, df F x0)‖))))) := IsBigO.of_bound 1 (ev.mono (fun F hF => by
    rw [one_mul]
    exact (key F hF).trans (le_abs_self _)))
  refine bigO.trans_isLittleO (IsLittleO.add ?_ ?_)
  · exact (d'.norm_left).const_mul_left C
  · have t0 : Filter.Tendsto (fun F => C * (C * (‖(f F x0, df F x0) - (f E x0, df E x0)‖ + |F - E| * (C * ‖(f F x0, df F x0)‖)))) (𝓝 E) (𝓝 0) := by
      have c := d.continuousAt
      have k := ((((c.sub (continuousAt_const (y := (f E x0, df E x0)))).norm).add (((continuousAt_id.sub (continuousAt_const (y := E))).abs).mul (c.norm.const_mul C))).const_mul C).const_mul C
      have := k.tendsto
      simpa using this
    have small : (fun F => (F - E) / |F - E| * (C * (C * (‖(f F x0, df F x0) - (f E x0, df E x0)‖ + |F - E| * (C * ‖(f F x0, df F x0)‖))))) =o[𝓝 E] (fun _ => (1 : ℝ)) := by
      rw [isLittleO_one_iff]
      refine squeeze_zero_norm (fun F => ?_) t0
      rw [norm_mul]
      have h1 : ‖(F - E) / |F - E|‖ ≤ 1 := by
        rw [Real.norm_eq_abs, abs_div, abs_abs]; exact div_self_le_one _
      have h2 : 0 ≤ C * (C * (‖(f F x0, df F x0) - (f E x0, df E x0)‖ + |F - E| * (C * ‖(f F x0, df F x0)‖))) := by positivity
      rw [Real.norm_of_nonneg h2]
      exact mul_le_of_le_one_left h2 h1
    have := (isBigO_refl (fun F => F - E) (𝓝 E)).mul_isLittleO small
    simpa only [mul_one] using this

/-- **The energy derivative of a family of solutions** exists and solves the differentiated equation. -/
theorem mfamily_deriv {M E : ℝ} (hM : 0 ≤ M) (hE : |E| ≤ M) {W : Sec ℝ → ℝ → Mat n ℝ} {l : List (Sec ℝ)} {a b : ℝ} (hc : Chn a l b) (hp : ∀ s ∈ l, s.min < s.max)
    (hV : ∀ s ∈ l, MSmoothOn M (W s) s.min s.max) {f df : ℝ → ℝ → Matrix (Fin n) (Fin r) ℝ} (hf : ∀ F, MSolvesMesh W F l (f F) (df F)) {x0 : ℝ} (h0 : x0 ∈ Set.Icc a b) {e de : Matrix (Fin n) (Fin r) ℝ}
    (d1 : ∀ i j, HasDerivAt (fun F => f F x0 i j) (e i j) E) (d2 : ∀ i j, HasDerivAt (fun F => df F x0 i j) (de i j) E) :
    ∃ z dz, MEnergyMesh W E l (f E) z dz ∧ z x0 = e ∧ dz x0 = de ∧
      ∀ x ∈ Set.Icc a b, ∀ i j, HasDerivAt (fun F => f F x i j) (z x i j) E ∧ HasDerivAt (fun F => df F x i j) (dz x i j) E := by
  obtain ⟨z, dz, hz, e1, e2⟩ := src_exists_at hM hE hc hp hV (g := f E) (fun s hs i j x hx => ((hf E s hs).d1 x hx i j).continuousWithinAt) h0 e de
  refine ⟨z, dz, hz, e1, e2, fun x hx i j => ?_⟩
  have k1 : HasDerivAt (fun F => f F x0) (z x0) E := by
    rw [e1]; exact hasDerivWithinAt_univ.mp (matrix_deriv (fun i j => (d1 i j).hasDerivWithinAt))
  have k2 : HasDerivAt (fun F => df F x0) (dz x0) E := by
    rw [e2]; exact hasDerivWithinAt_univ.mp (matrix_deriv (fun i j => (d2 i j).hasDerivWithinAt))
  have k := hasDerivWithinAt_univ.mpr (family_hasDeriv hM hE hc hp hV hf hz h0 (k1.prodMk k2) hx)
  exact ⟨hasDerivWithinAt_univ.mp (deriv_entry k.fst i j), hasDerivWithinAt_univ.mp (deriv_entry k.snd i j)⟩

end
end Verif.NP
