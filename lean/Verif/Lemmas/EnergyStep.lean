import Verif.Lemmas.SectorStep

/-!
# The energy derivative of one step
-/
namespace Verif.CalcT
open Verif.YT Verif.Formulas Verif.PL Verif.Legendre
open scoped BigOperators

/-- Taylor's formula for the η functions. -/
theorem eta_taylor {K Z Z' : ℝ} (hZ : |Z| ≤ K) (hZ' : |Z'| ≤ K) (m : ℕ) :
    |Eta.eta m Z' - Eta.eta m Z - (Z' - Z) * Eta.eta (m + 1) Z / 2| ≤ Real.exp K * (Z' - Z) ^ 2 := by
  have hsub : ∀ x ∈ Set.uIcc Z Z', |x| ≤ K := by
    intro x hx
    have : Set.uIcc Z Z' ⊆ Set.Icc (-K) K := Set.uIcc_subset_Icc (abs_le.mp hZ) (abs_le.mp hZ')
    exact abs_le.mpr (this hx)
  have hb : ∀ n x, |x| ≤ K → |Eta.eta n x| ≤ Real.exp K := fun n x hx => (abs_eta_le n x).trans (Real.exp_le_exp.mpr hx)
  have lip : ∀ x ∈ Set.uIcc Z Z', |Eta.eta (m + 1) x - Eta.eta (m + 1) Z| ≤ Real.exp K * |Z' - Z| := by
    intro x hx
    have := (convex_uIcc Z Z').norm_image_sub_le_of_norm_hasDerivWithin_le (f := Eta.eta (m + 1)) (f' := fun t => Eta.eta (m + 2) t / 2) (C := Real.exp K)
      (x := Z) (y := x) (fun t _ => (Eta.hasDerivAt_eta (m + 1) t).hasDerivWithinAt)
      (fun t ht => by
        rw [Real.norm_eq_abs, abs_div, abs_two]
        have := hb (m + 2) t (hsub t ht)
        have := abs_nonneg (Eta.eta (m + 2) t)
        linarith) Set.left_mem_uIcc hx
    rw [Real.norm_eq_abs, Real.norm_eq_abs] at this
    exact this.trans (mul_le_mul_of_nonneg_left (Set.abs_sub_left_of_mem_uIcc hx) (Real.exp_pos K).le)
  have := (convex_uIcc Z Z').norm_image_sub_le_of_norm_hasDerivWithin_le (f := fun t => Eta.eta m t - t * Eta.eta (m + 1) Z / 2)
    (f' := fun t => Eta.eta (m + 1) t / 2 - 1 * Eta.eta (m + 1) Z / 2) (C := Real.exp K * |Z' - Z|)
    (x := Z) (y := Z') (fun t _ => ((Eta.hasDerivAt_eta m t).sub (((hasDerivAt_id t).mul_const _).div_const 2)).hasDerivWithinAt)
    (fun t ht => by
      rw [Real.norm_eq_abs, one_mul, ← sub_div, abs_div, abs_two]
      have := lip t ht
      have := abs_nonneg (Eta.eta (m + 1) t - Eta.eta (m + 1) Z)
      linarith) Set.left_mem_uIcc Set.right_mem_uIcc
  rw [Real.norm_eq_abs, Real.norm_eq_abs] at this
  have e : Eta.eta m Z' - Z' * Eta.eta (m + 1) Z / 2 - (Eta.eta m Z - Z * Eta.eta (m + 1) Z / 2) =
    Eta.eta m Z' - Eta.eta m Z - (Z' - Z) * Eta.eta (m + 1) Z / 2 := by ring
  rw [e] at this
  refine this.trans (le_of_eq ?_)
  rw [← sq_abs (Z' - Z)]; ring

theorem eta_lip {K Z Z' : ℝ} (hZ : |Z| ≤ K) (hZ' : |Z'| ≤ K) (m : ℕ) :
    |Eta.eta m Z' - Eta.eta m Z| ≤ Real.exp K * |Z' - Z| := by
  have hsub : ∀ x ∈ Set.uIcc Z Z', |x| ≤ K := by
    intro x hx
    have : Set.uIcc Z Z' ⊆ Set.Icc (-K) K := Set.uIcc_subset_Icc (abs_le.mp hZ) (abs_le.mp hZ')
    exact abs_le.mpr (this hx)
  have := (convex_uIcc Z Z').norm_image_sub_le_of_norm_hasDerivWithin_le (f := Eta.eta m) (f' := fun t => Eta.eta (m + 1) t / 2) (C := Real.exp K)
    (x := Z) (y := Z') (fun t _ => (Eta.hasDerivAt_eta m t).hasDerivWithinAt)
    (fun t ht => by
      rw [Real.norm_eq_abs, abs_div, abs_two]
      have := (abs_eta_le (m + 1) t).trans (Real.exp_le_exp.mpr (hsub t ht))
      have := abs_nonneg (Eta.eta (m + 1) t)
      linarith) Set.left_mem_uIcc Set.right_mem_uIcc
  simpa [Real.norm_eq_abs] using this

/-- one term of the sum -/
theorem term_energy {K q σ δ Δ hor e e' e1 Z Z' : ℝ} {j : ℕ} (hZ : |Z| ≤ K) (hZ' : |Z'| ≤ K) (hd : Z' - Z = -Δ * (δ * δ)) (δ0 : 0 ≤ δ) (δ1 : δ ≤ 1)
    (h1 : |e - Eta.eta j Z| ≤ σ) (h2 : |e' - Eta.eta j Z'| ≤ σ) (hh : |hor| ≤ q) :
    |hor * e' - hor * e + hor * (Δ * (δ * δ) * Eta.eta (j + 1) Z / 2)| ≤ q * (Real.exp K * (δ * Δ ^ 2) + 2 * σ) ∧
    (|e1 - Eta.eta (j + 1) Z| ≤ σ → |hor * e' - hor * e - Δ * (hor * (-(δ * δ) * e1 / 2))| ≤ q * (Real.exp K * (δ * Δ ^ 2) + 2 * σ * (1 + |Δ|))) := by
  have hq : 0 ≤ q := (abs_nonneg _).trans hh
  have hσ : 0 ≤ σ := (abs_nonneg _).trans h1
  have t := eta_taylor hZ hZ' j
  rw [hd] at t
  have d2 : (-Δ * (δ * δ)) ^ 2 ≤ δ * Δ ^ 2 := by
    have : δ ^ 4 ≤ δ := by
      calc δ ^ 4 ≤ δ ^ 1 := pow_le_pow_of_le_one δ0 δ1 (by norm_num)
        _ = δ := pow_one δ
    have h := mul_le_mul_of_nonneg_right this (sq_nonneg Δ)
    calc (-Δ * (δ * δ)) ^ 2 = δ ^ 4 * Δ ^ 2 := by ring
      _ ≤ _ := h
  have t2 : |Eta.eta j Z' - Eta.eta j Z - -Δ * (δ * δ) * Eta.eta (j + 1) Z / 2| ≤ Real.exp K * (δ * Δ ^ 2) :=
    t.trans (mul_le_mul_of_nonneg_left d2 (Real.exp_pos K).le)
  have dd : δ * δ ≤ 1 := mul_le_one₀ δ1 δ0 δ1
  have x0 : 0 ≤ Real.exp K * (δ * Δ ^ 2) := by positivity
  constructor
  · have e : hor * e' - hor * e + hor * (Δ * (δ * δ) * Eta.eta (j + 1) Z / 2) =
        hor * ((Eta.eta j Z' - Eta.eta j Z - -Δ * (δ * δ) * Eta.eta (j + 1) Z / 2) + (e' - Eta.eta j Z') + -(e - Eta.eta j Z)) := by ring
    rw [e, abs_mul]
    refine mul_le_mul hh ?_ (abs_nonneg _) hq
    refine (abs_add_three _ _ _).trans ?_
    rw [abs_neg]; linarith
  · intro h3
    have ee : hor * e' - hor * e - Δ * (hor * (-(δ * δ) * e1 / 2)) =
        hor * (((Eta.eta j Z' - Eta.eta j Z - -Δ * (δ * δ) * Eta.eta (j + 1) Z / 2) + (e' - Eta.eta j Z') + -(e - Eta.eta j Z)) +
          Δ * (δ * δ) / 2 * (e1 - Eta.eta (j + 1) Z)) := by ring
    rw [ee, abs_mul]
    refine mul_le_mul hh ?_ (abs_nonneg _) hq
    have a1 : |Δ * (δ * δ) / 2 * (e1 - Eta.eta (j + 1) Z)| ≤ |Δ| * σ := by
      rw [abs_mul, abs_div, abs_mul, abs_two, abs_of_nonneg (by positivity : 0 ≤ δ * δ)]
      have : |Δ| * (δ * δ) / 2 ≤ |Δ| := by
        have := abs_nonneg Δ
        nlinarith
      exact mul_le_mul this h3 (abs_nonneg _) (abs_nonneg _)
    refine (abs_add_le _ _).trans ?_
    have a2 := abs_add_three (Eta.eta j Z' - Eta.eta j Z - -Δ * (δ * δ) * Eta.eta (j + 1) Z / 2) (e' - Eta.eta j Z') (-(e - Eta.eta j Z))
    rw [abs_neg] at a2
    have a3 : 0 ≤ σ * |Δ| := mul_nonneg hσ (abs_nonneg _)
    have a4 : 2 * σ * (1 + |Δ|) = 2 * σ + σ * |Δ| + |Δ| * σ := by ring
    linarith

/-- the part outside the sum -/
theorem prefix_energy {K σ δ Δ u u' e e' e2 : ℝ} (hK : 0 ≤ K) (hu : |u| ≤ K) (hu' : |u'| ≤ K) (hd : u' = u - Δ) (δ0 : 0 ≤ δ) (δ1 : δ ≤ 1)
    (h1 : |e - Eta.eta 1 (u * (δ * δ))| ≤ σ) (h2 : |e' - Eta.eta 1 (u' * (δ * δ))| ≤ σ) (h3 : |e2 - Eta.eta 2 (u * (δ * δ))| ≤ σ) :
    |u' * δ * e' - u * δ * e - Δ * (-δ * e - u * (δ * δ) * δ * e2 / 2)| ≤ (K + 1) * (Real.exp K * (δ * Δ ^ 2) + 2 * σ * (1 + |Δ|)) := by
  have hσ : 0 ≤ σ := (abs_nonneg _).trans h1
  have dd : δ * δ ≤ 1 := mul_le_one₀ δ1 δ0 δ1
  have dd0 : 0 ≤ δ * δ := by positivity
  have hz : ∀ {w : ℝ}, |w| ≤ K → |w * (δ * δ)| ≤ K := fun {w} hw => by
    rw [abs_mul, abs_of_nonneg dd0]
    have := abs_nonneg w
    nlinarith
  set Z := u * (δ * δ)
  set Z' := u' * (δ * δ)
  have hZZ : Z' - Z = -Δ * (δ * δ) := by simp only [Z, Z', hd]; ring
  have t := eta_taylor (hz hu) (hz hu') 1
  have l := eta_lip (hz hu) (hz hu') 1
  rw [hZZ] at t l
  have ex := Real.exp_pos K
  have p1 : (-Δ * (δ * δ)) ^ 2 ≤ Δ ^ 2 := by
    have : (δ * δ) ^ 2 ≤ 1 := pow_le_one₀ dd0 dd
    calc (-Δ * (δ * δ)) ^ 2 = Δ ^ 2 * (δ * δ) ^ 2 := by ring
      _ ≤ Δ ^ 2 * 1 := mul_le_mul_of_nonneg_left this (sq_nonneg _)
      _ = _ := mul_one _
  have p2 : |-Δ * (δ * δ)| ≤ |Δ| := by
    rw [abs_mul, abs_neg, abs_of_nonneg dd0]; exact mul_le_of_le_one_right (abs_nonneg _) dd
  have t1 := t.trans (mul_le_mul_of_nonneg_left p1 ex.le)
  have l1 := l.trans (mul_le_mul_of_nonneg_left p2 ex.le)
  set T := Eta.eta 1 Z' - Eta.eta 1 Z - -Δ * (δ * δ) * Eta.eta (1 + 1) Z / 2 with hT
  set L := Eta.eta 1 Z' - Eta.eta 1 Z with hL
  have ee : u' * δ * e' - u * δ * e - Δ * (-δ * e - u * (δ * δ) * δ * e2 / 2) =
      (δ * (u * T) + δ * (-(Δ * L)) + δ * (u' * (e' - Eta.eta 1 Z'))) + δ * (-(u * (e - Eta.eta 1 Z))) + δ * (Δ * (e - Eta.eta 1 Z)) +
        δ * (Δ * (u * (δ * δ) / 2 * (e2 - Eta.eta 2 Z))) := by
    rw [hT, hL, hd]; ring
  rw [ee]
  have q1 : |δ * (u * T)| ≤ δ * (K * (Real.exp K * Δ ^ 2)) := by
    rw [abs_mul, abs_mul, abs_of_nonneg δ0]
    exact mul_le_mul_of_nonneg_left (mul_le_mul hu t1 (abs_nonneg _) hK) δ0
  have q2 : |δ * (-(Δ * L))| ≤ δ * (Real.exp K * Δ ^ 2) := by
    rw [abs_mul, abs_neg, abs_mul, abs_of_nonneg δ0]
    refine mul_le_mul_of_nonneg_left ?_ δ0
    have := mul_le_mul_of_nonneg_left l1 (abs_nonneg Δ)
    rw [← sq_abs Δ]
    linarith
  have sm : ∀ {x y : ℝ}, |x| ≤ y → |δ * x| ≤ y := fun {x y} h => by
    rw [abs_mul, abs_of_nonneg δ0]
    exact (mul_le_of_le_one_left (abs_nonneg _) δ1).trans h
  have q3 : |δ * (u' * (e' - Eta.eta 1 Z'))| ≤ K * σ := sm (by rw [abs_mul]; exact mul_le_mul hu' h2 (abs_nonneg _) hK)
  have q4 : |δ * (-(u * (e - Eta.eta 1 Z)))| ≤ K * σ := sm (by rw [abs_neg, abs_mul]; exact mul_le_mul hu h1 (abs_nonneg _) hK)
  have q5 : |δ * (Δ * (e - Eta.eta 1 Z))| ≤ |Δ| * σ := sm (by rw [abs_mul]; exact mul_le_mul_of_nonneg_left h1 (abs_nonneg _))
  have q6 : |δ * (Δ * (u * (δ * δ) / 2 * (e2 - Eta.eta 2 Z)))| ≤ |Δ| * (K * σ) := sm (by
    rw [abs_mul, abs_mul, abs_div, abs_two]
    refine mul_le_mul_of_nonneg_left (mul_le_mul ?_ h3 (abs_nonneg _) hK) (abs_nonneg _)
    have := hz hu
    have := abs_nonneg Z
    change |Z| / 2 ≤ K
    linarith)
  refine (abs_add_le _ _).trans ?_
  have s1 := abs_add_le ((δ * (u * T) + δ * (-(Δ * L)) + δ * (u' * (e' - Eta.eta 1 Z'))) + δ * (-(u * (e - Eta.eta 1 Z)))) (δ * (Δ * (e - Eta.eta 1 Z)))
  have s2 := abs_add_le (δ * (u * T) + δ * (-(Δ * L)) + δ * (u' * (e' - Eta.eta 1 Z'))) (δ * (-(u * (e - Eta.eta 1 Z))))
  have s3 := abs_add_three (δ * (u * T)) (δ * (-(Δ * L))) (δ * (u' * (e' - Eta.eta 1 Z')))
  have z1 : 0 ≤ K * σ * |Δ| := by positivity
  have z2 : 0 ≤ σ * |Δ| := by positivity
  have f : (K + 1) * (Real.exp K * (δ * Δ ^ 2) + 2 * σ * (1 + |Δ|)) = δ * (K * (Real.exp K * Δ ^ 2)) + δ * (Real.exp K * Δ ^ 2) +
    (K * σ + K * σ + 2 * σ + 2 * (K * σ * |Δ|) + 2 * (σ * |Δ|)) := by ring
  rw [f]
  have g1 : |Δ| * σ = σ * |Δ| := mul_comm _ _
  have g2 : |Δ| * (K * σ) = K * σ * |Δ| := by ring
  linarith

/-- **The second member of a transfer matrix is the energy derivative of the first**, up to the dropped last term and the accuracy of the η functions. -/
theorem body_energy (p : Cp) {N : ℕ} (hN : 3 ≤ N) {hor : ℕ → M2 ℝ} {e e' : ℕ → ℝ} {K P q σ δ Δ u u' : ℝ} (hK : 0 ≤ K) (hu : |u| ≤ K) (hu' : |u'| ≤ K)
    (hd : u' = u - Δ) (δ0 : 0 ≤ δ) (δ1 : δ ≤ 1) (h1 : ∀ i < N, |e i - Eta.eta i (u * (δ * δ))| ≤ σ) (h2 : ∀ i < N, |e' i - Eta.eta i (u' * (δ * δ))| ≤ σ)
    (hP : ∀ i < N, |p.of (hor i)| ≤ P) (hq : |p.of (hor (N - 1))| ≤ q) :
    |p.of (body N hor e' u' δ).t - p.of (body N hor e u δ).t - Δ * p.of (body N hor e u δ).dt| ≤
      (K + 1 + N * P) * (Real.exp K * (δ * Δ ^ 2) + 2 * σ * (1 + |Δ|)) + |Δ| * (δ * δ) * q * Real.exp K := by
  have hσ : 0 ≤ σ := (abs_nonneg _).trans (h1 0 (by omega))
  have hP0 : 0 ≤ P := (abs_nonneg _).trans (hP 0 (by omega))
  have dd : δ * δ ≤ 1 := mul_le_one₀ δ1 δ0 δ1
  have dd0 : 0 ≤ δ * δ := by positivity
  have hz : ∀ {w : ℝ}, |w| ≤ K → |w * (δ * δ)| ≤ K := fun {w} hw => by
    rw [abs_mul, abs_of_nonneg dd0]
    have := abs_nonneg w
    nlinarith
  have hZZ : u' * (δ * δ) - u * (δ * δ) = -Δ * (δ * δ) := by rw [hd]; ring
  rw [body_t, body_t, body_dt]
  obtain ⟨n, rfl⟩ : ∃ n, N = n + 1 := ⟨N - 1, by omega⟩
  rw [Nat.add_sub_cancel] at hq
  set S := Real.exp K * (δ * Δ ^ 2) + 2 * σ * (1 + |Δ|) with hS
  have ex := Real.exp_pos K
  have hS0 : 0 ≤ S := by rw [hS]; positivity
  have terms : |∑ j ∈ Finset.range (n + 1), p.of (hor j) * e' j - ∑ j ∈ Finset.range (n + 1), p.of (hor j) * e j -
      Δ * ∑ j ∈ Finset.range (n + 1), (if j + 1 < n + 1 then p.of (hor j) * (-(δ * δ) * e (j + 1) / 2) else 0)| ≤
      (n + 1) * P * S + |Δ| * (δ * δ) * q * Real.exp K := by
    rw [Finset.mul_sum, ← Finset.sum_sub_distrib, ← Finset.sum_sub_distrib, Finset.sum_range_succ]
    have a1 : |∑ j ∈ Finset.range n, (p.of (hor j) * e' j - p.of (hor j) * e j - Δ * (if j + 1 < n + 1 then p.of (hor j) * (-(δ * δ) * e (j + 1) / 2) else 0))| ≤
        ∑ j ∈ Finset.range n, P * S := by
      refine (Finset.abs_sum_le_sum_abs _ _).trans (Finset.sum_le_sum (fun j hj => ?_))
      have hj := Finset.mem_range.mp hj
      rw [if_pos (by omega)]
      exact (term_energy (hz hu) (hz hu') hZZ δ0 δ1 (h1 j (by omega)) (h2 j (by omega)) (hP j (by omega))).2 (h1 (j + 1) (by omega))
    rw [Finset.sum_const, Finset.card_range, nsmul_eq_mul] at a1
    have a2 : |p.of (hor n) * e' n - p.of (hor n) * e n - Δ * (if n + 1 < n + 1 then p.of (hor n) * (-(δ * δ) * e (n + 1) / 2) else 0)| ≤
        P * S + |Δ| * (δ * δ) * q * Real.exp K := by
      rw [if_neg (by omega), mul_zero, sub_zero]
      have b1 := (term_energy (e1 := 0) (hz hu) (hz hu') hZZ δ0 δ1 (h1 n (by omega)) (h2 n (by omega)) (hP n (by omega))).1
      have b2 : |p.of (hor n) * (Δ * (δ * δ) * Eta.eta (n + 1) (u * (δ * δ)) / 2)| ≤ |Δ| * (δ * δ) * q * Real.exp K := by
        rw [abs_mul, abs_div, abs_mul, abs_mul, abs_two, abs_of_nonneg dd0]
        have c1 := (abs_eta_le (n + 1) (u * (δ * δ))).trans (Real.exp_le_exp.mpr (hz hu))
        have c2 := mul_le_mul hq c1 (abs_nonneg _) ((abs_nonneg _).trans hq)
        have c3 := mul_le_mul_of_nonneg_left c2 (mul_nonneg (abs_nonneg Δ) dd0)
        have c4 : 0 ≤ |p.of (hor n)| * (|Δ| * (δ * δ) * |Eta.eta (n + 1) (u * (δ * δ))|) := by positivity
        linarith
      have b3 : p.of (hor n) * e' n - p.of (hor n) * e n = (p.of (hor n) * e' n - p.of (hor n) * e n + p.of (hor n) * (Δ * (δ * δ) * Eta.eta (n + 1) (u * (δ * δ)) / 2)) -
        p.of (hor n) * (Δ * (δ * δ) * Eta.eta (n + 1) (u * (δ * δ)) / 2) := by ring
      rw [b3]
      refine (abs_sub _ _).trans (add_le_add (b1.trans (mul_le_mul_of_nonneg_left ?_ hP0)) b2)
      rw [hS]
      have := mul_nonneg hσ (abs_nonneg Δ)
      linarith
    refine (abs_add_le _ _).trans ?_
    have : ((n : ℝ) + 1) * P * S = n * (P * S) + P * S := by ring
    linarith
  have f : ∀ a a' b b' c c' : ℝ, a + b - (a' + b') - Δ * (c + c') = (a - a' - Δ * c) + (b - b' - Δ * c') := by intros; ring
  rw [f]
  have g : (K + 1) * S + ((n + 1) * P * S + |Δ| * (δ * δ) * q * Real.exp K) ≤
      (K + 1 + ((n + 1 : ℕ) : ℝ) * P) * S + |Δ| * (δ * δ) * q * Real.exp K := by
    push_cast
    apply le_of_eq; ring
  refine (abs_add_le _ _).trans ((add_le_add ?_ terms).trans g)
  cases p with
  | c => exact prefix_energy hK hu hu' hd δ0 δ1 (h1 1 (by omega)) (h2 1 (by omega)) (h1 2 (by omega))
  | a => simp; positivity
  | b => simp; positivity
  | d => simp; positivity

theorem body_dt_bound (p : Cp) {N : ℕ} (hN : 3 ≤ N) {hor : ℕ → M2 ℝ} {e : ℕ → ℝ} {K P σ δ u : ℝ} (hK : 0 ≤ K) (hu : |u| ≤ K)
    (δ0 : 0 ≤ δ) (δ1 : δ ≤ 1) (h1 : ∀ i < N, |e i - Eta.eta i (u * (δ * δ))| ≤ σ) (hσ1 : σ ≤ 1)
    (hP : ∀ i < N, |p.of (hor i)| ≤ P) :
    |p.of (body N hor e u δ).dt| ≤ (K + 1 + N * P) * (Real.exp K + 1) * δ := by
  have hP0 : 0 ≤ P := (abs_nonneg _).trans (hP 0 (by omega))
  have dd : δ * δ ≤ δ := mul_le_of_le_one_left δ0 δ1
  have dd1 : δ * δ ≤ 1 := mul_le_one₀ δ1 δ0 δ1
  have dd0 : 0 ≤ δ * δ := by positivity
  have ex := Real.exp_pos K
  have hz : |u * (δ * δ)| ≤ K := by
    rw [abs_mul, abs_of_nonneg dd0]
    have := abs_nonneg u
    nlinarith
  have he : ∀ i < N, |e i| ≤ Real.exp K + 1 := by
    intro i hi
    have e3 : e i = (e i - Eta.eta i (u * (δ * δ))) + Eta.eta i (u * (δ * δ)) := by ring
    rw [e3]
    have := h1 i hi
    have := (abs_eta_le i (u * (δ * δ))).trans (Real.exp_le_exp.mpr hz)
    exact (abs_add_le _ _).trans (by linarith)
  rw [body_dt]
  refine (abs_add_le _ _).trans ?_
  have sum : |∑ j ∈ Finset.range N, (if j + 1 < N then p.of (hor j) * (-(δ * δ) * e (j + 1) / 2) else 0)| ≤ N * (P * ((Real.exp K + 1) * δ)) := by
    have : ∀ j ∈ Finset.range N, |if j + 1 < N then p.of (hor j) * (-(δ * δ) * e (j + 1) / 2) else 0| ≤ P * ((Real.exp K + 1) * δ) := by
      intro j hj
      split
      · rename_i hj'
        rw [abs_mul]
        refine mul_le_mul (hP j (by omega)) ?_ (abs_nonneg _) hP0
        rw [abs_div, abs_mul, abs_neg, abs_two, abs_of_nonneg dd0]
        have a := mul_le_mul dd (he (j + 1) hj') (abs_nonneg _) δ0
        have : 0 ≤ δ * δ * |e (j + 1)| := by positivity
        linarith
      · simp; positivity
    refine (Finset.abs_sum_le_sum_abs _ _).trans ((Finset.sum_le_sum this).trans ?_)
    rw [Finset.sum_const, Finset.card_range, nsmul_eq_mul]
  have g : (K + 1 + N * P) * (Real.exp K + 1) * δ = (K + 1) * (Real.exp K + 1) * δ + N * (P * ((Real.exp K + 1) * δ)) := by ring
  rw [g]
  refine add_le_add ?_ sum
  cases p with
  | c =>
    dsimp only
    have a1 : |-δ * e 1| ≤ δ * (Real.exp K + 1) := by
      rw [abs_mul, abs_neg, abs_of_nonneg δ0]; exact mul_le_mul_of_nonneg_left (he 1 (by omega)) δ0
    have a2 : |u * (δ * δ) * δ * e 2 / 2| ≤ K * δ * (Real.exp K + 1) := by
      rw [abs_div, abs_mul, abs_mul, abs_two, abs_of_nonneg δ0]
      have := mul_le_mul (mul_le_mul_of_nonneg_right hz δ0) (he 2 (by omega)) (abs_nonneg _) (by positivity)
      have : 0 ≤ |u * (δ * δ)| * δ * |e 2| := by positivity
      linarith
    refine (abs_sub _ _).trans ?_
    have : (K + 1) * (Real.exp K + 1) * δ = K * δ * (Real.exp K + 1) + δ * (Real.exp K + 1) := by ring
    linarith
  | a => simp; positivity
  | b => simp; positivity
  | d => simp; positivity

/-! ### The tables of the code -/

set_option maxRecDepth 100000 in
theorem rp8_ord_check : [Entry4.a, Entry4.b, Entry4.c, Entry4.d].all (fun s => (rp s 8).all (fun m => Nat.ble 15 m.ord)) = true := by decide +kernel

set_option maxRecDepth 100000 in
theorem hp9_ord_check : [Entry4.a, Entry4.b, Entry4.c, Entry4.d].all (fun s => (hp s 9).all (fun m => Nat.ble 15 m.ord)) = true := by decide +kernel

theorem mem_sels (p : Cp) : p.sel ∈ [Entry4.a, Entry4.b, Entry4.c, Entry4.d] := by cases p <;> simp [Cp.sel]

theorem rp8_ord (p : Cp) : ∀ m ∈ rp p.sel 8, 15 ≤ m.ord := fun m hm =>
  Nat.ble_eq.mp (List.all_eq_true.mp (List.all_eq_true.mp rp8_ord_check _ (mem_sels p)) m hm)

theorem hp9_ord (p : Cp) : ∀ m ∈ hp p.sel 9, 15 ≤ m.ord := fun m hm =>
  Nat.ble_eq.mp (List.all_eq_true.mp (List.all_eq_true.mp hp9_ord_check _ (mem_sels p)) m hm)

theorem exists_bound (f : Cp → ℕ → ℝ) (hf : ∀ p i, 0 ≤ f p i) (n : ℕ) : ∃ P, 0 ≤ P ∧ ∀ p, ∀ i < n, f p i ≤ P := by
  refine ⟨∑ i ∈ Finset.range n, (f .a i + f .b i + f .c i + f .d i),
    Finset.sum_nonneg (fun i _ => by have := hf .a i; have := hf .b i; have := hf .c i; have := hf .d i; linarith), fun p i hi => ?_⟩
  have h1 : f p i ≤ f .a i + f .b i + f .c i + f .d i := by
    have := hf .a i; have := hf .b i; have := hf .c i; have := hf .d i
    cases p <;> linarith
  refine h1.trans (Finset.single_le_sum (f := fun i => f .a i + f .b i + f .c i + f .d i) (fun i _ => ?_) (Finset.mem_range.mpr hi))
  have := hf .a i; have := hf .b i; have := hf .c i; have := hf .d i; positivity

/-- The size of a table entry at the end of the sector. -/
theorem entry_size {B h t : ℝ} (hB : 1 ≤ B) {v w : ℕ → ℝ} (h0 : 0 < h) (h1 : h ≤ 1) (hw : ∀ k, 1 ≤ k → |w k| ≤ B)
    (vB : ∀ k, 1 ≤ k → |v k| * h ^ k ≤ B) (wB : ∀ k, 1 ≤ k → |w k| * h ^ k ≤ B) (vd : ∀ k, 1 ≤ k → |v k - w k| * h ^ k ≤ t)
    {l : PL} {n : ℕ} (hn : ∀ m ∈ l, n ≤ m.ord) (hg : Good 0 l) (hh : Hom 1 l) :
    |eval v h 1 l / D| ≤ (bnd B l + bndD B l) * (h ^ n + h * t) := by
  have t0 : 0 ≤ t := le_trans (by positivity) (vd 1 le_rfl)
  have a1 := eval_diff h0.le h1 zero_le_one le_rfl hB vB wB vd l hh hg
  have a2 := eval_bound hB hw h0.le h1 zero_le_one le_rfl l hn hg
  rw [pow_one] at a1
  simp only [one_pow, mul_one] at a2
  have b1 := bnd_nonneg (show 0 ≤ B by linarith) l
  have b2 := bndD_nonneg (show 0 ≤ B by linarith) l
  rw [abs_div, abs_of_pos D_pos]
  refine (div_le_self (abs_nonneg _) D_ge).trans ?_
  have e : eval v h 1 l = (eval v h 1 l - eval w h 1 l) + eval w h 1 l := by ring
  rw [e]
  refine (abs_add_le _ _).trans ?_
  have c1 : 0 ≤ bnd B l * (h * t) := by positivity
  have c2 : 0 ≤ bndD B l * h ^ n := by positivity
  have c3 : (bnd B l + bndD B l) * (h ^ n + h * t) = bnd B l * h ^ n + bnd B l * (h * t) + bndD B l * h ^ n + bndD B l * (h * t) := by ring
  linarith

/-- **Full step**: the second member of the transfer matrix is the energy derivative of the first. -/
theorem full_energy (M : ℝ) (hM : 1 ≤ M) : ∃ C : ℝ, 1 ≤ C ∧ ∀ (eps σ τ : ℝ) (eta : ℕ → ℝ → ℕ → ℝ) (v : ℕ → ℝ) (W : ℝ → ℝ) (a b E E' : ℝ) (useH : Bool) (p : Cp),
    EtaWithin σ eta → σ ≤ 1 → τ ≤ 1 → 0 ≤ eps → eps < b - a → b - a ≤ 1 → SmoothOn M W a b → CoeffWithin τ W a b v → |E| ≤ M → |E'| ≤ M →
    |p.of (calculateTWith eps eta (mkSec (b - a) v) E' (b - a) useH).t - p.of (calculateTWith eps eta (mkSec (b - a) v) E (b - a) useH).t -
      (E' - E) * p.of (calculateTWith eps eta (mkSec (b - a) v) E (b - a) useH).dt| ≤
      C * ((b - a) * (E' - E) ^ 2 + |E' - E| * ((b - a) ^ 17 + (b - a) * τ) + σ) ∧
    |p.of (calculateTWith eps eta (mkSec (b - a) v) E (b - a) useH).dt| ≤ C * (b - a) := by
  have hM0 : 0 ≤ M := by linarith
  set B := M1 M with hBd
  have hB : 1 ≤ B := by rw [hBd]; unfold M1; linarith
  obtain ⟨P1, P10, hP1⟩ := exists_bound (fun p i => bnd B (hp p.sel i) + bndD B (hp p.sel i))
    (fun p i => add_nonneg (bnd_nonneg (by linarith) _) (bndD_nonneg (by linarith) _)) 10
  obtain ⟨P2, P20, hP2⟩ := exists_bound (fun p i => bnd B (rp p.sel i) + bndD B (rp p.sel i))
    (fun p i => add_nonneg (bnd_nonneg (by linarith) _) (bndD_nonneg (by linarith) _)) 9
  set P := P1 + P2 with hP
  have hPP : 0 ≤ P := by linarith
  set Q := P * (1 + 32 * M) with hQ
  have hQ0 : 0 ≤ Q := by positivity
  have ex := Real.exp_pos B
  set A := B + 1 + 10 * Q with hA
  have hA0 : 0 ≤ A := by positivity
  -- the common part: a body with `N ≤ 10` η functions
  have common : ∀ (N : ℕ) (hN : 3 ≤ N) (hN' : N ≤ 10) (σ τ : ℝ) (eta : ℕ → ℝ → ℕ → ℝ) (hor : ℕ → M2 ℝ) (h u u' Δ : ℝ) (p : Cp), EtaWithin σ eta → σ ≤ 1 → 0 ≤ τ →
      0 < h → h ≤ 1 → |u| ≤ B → |u'| ≤ B → u' = u - Δ → |Δ| ≤ 2 * M → (∀ i < N, |p.of (hor i)| ≤ Q) → |p.of (hor (N - 1))| ≤ P * (h ^ 15 + h * (τ + 31 * M * h ^ 16)) →
      |p.of (body N hor (eta N (u' * (h * h))) u' h).t - p.of (body N hor (eta N (u * (h * h))) u h).t - Δ * p.of (body N hor (eta N (u * (h * h))) u h).dt| ≤
        (A * (Real.exp B + 1) * (2 + 4 * M) + P * Real.exp B * (1 + 32 * M)) * (h * Δ ^ 2 + |Δ| * (h ^ 17 + h * τ) + σ) ∧
      |p.of (body N hor (eta N (u * (h * h))) u h).dt| ≤ A * (Real.exp B + 1) * h := by
    intro N hN hN' σ τ eta hor h u u' Δ p he hσ1 hτ0 h0 h1 hu hu' hd hΔ hor1 hor2
    have hσ0 := he.nonneg
    have e1 : ∀ i < N, |eta N (u * (h * h)) i - Eta.eta i (u * (h * h))| ≤ σ := fun i hi => he N (by omega) _ i hi
    have e2 : ∀ i < N, |eta N (u' * (h * h)) i - Eta.eta i (u' * (h * h))| ≤ σ := fun i hi => he N (by omega) _ i hi
    have k1 := body_energy p hN (by linarith) hu hu' hd h0.le h1 e1 e2 hor1 hor2
    have k2 := body_dt_bound p hN (by linarith) hu h0.le h1 e1 hσ1 hor1
    have hNc : (N : ℝ) ≤ 10 := by exact_mod_cast hN'
    have hAN : B + 1 + N * Q ≤ A := by
      rw [hA]; have := mul_le_mul_of_nonneg_right hNc hQ0; linarith
    constructor
    · refine k1.trans ?_
      have X0 : 0 ≤ Real.exp B * (h * Δ ^ 2) + 2 * σ * (1 + |Δ|) := by positivity
      have s1 := mul_le_mul_of_nonneg_right hAN X0
      have n1 : 0 ≤ h * Δ ^ 2 := by positivity
      have n2 : 0 ≤ |Δ| * (h ^ 17 + h * τ) := by positivity
      have s2 : Real.exp B * (h * Δ ^ 2) + 2 * σ * (1 + |Δ|) ≤ (Real.exp B + 1) * (2 + 4 * M) * (h * Δ ^ 2 + |Δ| * (h ^ 17 + h * τ) + σ) := by
        have t1 : 2 * σ * (1 + |Δ|) ≤ (2 + 4 * M) * σ := by
          have := mul_le_mul_of_nonneg_left hΔ (show 0 ≤ 2 * σ by linarith)
          linarith
        have t2 : (2 + 4 * M) * σ ≤ (Real.exp B + 1) * (2 + 4 * M) * σ :=
          mul_le_mul_of_nonneg_right (le_mul_of_one_le_left (by linarith) (by linarith)) hσ0
        have t3 : Real.exp B * (h * Δ ^ 2) ≤ (Real.exp B + 1) * (2 + 4 * M) * (h * Δ ^ 2) := by
          refine mul_le_mul_of_nonneg_right ?_ n1
          nlinarith
        have t4 : 0 ≤ (Real.exp B + 1) * (2 + 4 * M) * (|Δ| * (h ^ 17 + h * τ)) := by positivity
        have t5 : (Real.exp B + 1) * (2 + 4 * M) * (h * Δ ^ 2 + |Δ| * (h ^ 17 + h * τ) + σ) = (Real.exp B + 1) * (2 + 4 * M) * (h * Δ ^ 2) +
          (Real.exp B + 1) * (2 + 4 * M) * (|Δ| * (h ^ 17 + h * τ)) + (Real.exp B + 1) * (2 + 4 * M) * σ := by ring
        linarith
      have s3 := mul_le_mul_of_nonneg_left s2 hA0
      have s4 : h * h * (h ^ 15 + h * (τ + 31 * M * h ^ 16)) ≤ (1 + 32 * M) * (h ^ 17 + h * τ) := by
        have t1 : h ^ 19 ≤ h ^ 17 := pow_le_pow_of_le_one h0.le h1 (by norm_num)
        have t2 : h * h * (h * τ) ≤ h * τ := mul_le_of_le_one_left (by positivity) (mul_le_one₀ h1 h0.le h1)
        have t3 : h * h * (h ^ 15 + h * (τ + 31 * M * h ^ 16)) = h ^ 17 + h * h * (h * τ) + 31 * M * h ^ 19 := by ring
        have t4 := mul_le_mul_of_nonneg_left t1 (show 0 ≤ 31 * M by linarith)
        have t5 : 0 ≤ M * (h * τ) := by positivity
        have t6 : 0 ≤ M * h ^ 17 := by positivity
        have t7 : (1 + 32 * M) * (h ^ 17 + h * τ) = h ^ 17 + h * τ + 31 * M * h ^ 17 + M * h ^ 17 + 32 * (M * (h * τ)) := by ring
        linarith
      have s5 : |Δ| * (h * h) * (P * (h ^ 15 + h * (τ + 31 * M * h ^ 16))) * Real.exp B ≤ P * Real.exp B * (1 + 32 * M) * (h * Δ ^ 2 + |Δ| * (h ^ 17 + h * τ) + σ) := by
        have t1 := mul_le_mul_of_nonneg_left s4 (show 0 ≤ P * Real.exp B * |Δ| by positivity)
        have t2 : P * Real.exp B * (1 + 32 * M) * (|Δ| * (h ^ 17 + h * τ)) ≤ P * Real.exp B * (1 + 32 * M) * (h * Δ ^ 2 + |Δ| * (h ^ 17 + h * τ) + σ) :=
          mul_le_mul_of_nonneg_left (by linarith) (by positivity)
        have t3 : |Δ| * (h * h) * (P * (h ^ 15 + h * (τ + 31 * M * h ^ 16))) * Real.exp B = P * Real.exp B * |Δ| * (h * h * (h ^ 15 + h * (τ + 31 * M * h ^ 16))) := by ring
        have t4 : P * Real.exp B * |Δ| * ((1 + 32 * M) * (h ^ 17 + h * τ)) = P * Real.exp B * (1 + 32 * M) * (|Δ| * (h ^ 17 + h * τ)) := by ring
        linarith
      have s6 : (A * (Real.exp B + 1) * (2 + 4 * M) + P * Real.exp B * (1 + 32 * M)) * (h * Δ ^ 2 + |Δ| * (h ^ 17 + h * τ) + σ) =
        A * ((Real.exp B + 1) * (2 + 4 * M) * (h * Δ ^ 2 + |Δ| * (h ^ 17 + h * τ) + σ)) + P * Real.exp B * (1 + 32 * M) * (h * Δ ^ 2 + |Δ| * (h ^ 17 + h * τ) + σ) := by ring
      linarith
    · refine k2.trans (mul_le_mul_of_nonneg_right (mul_le_mul_of_nonneg_right hAN (by linarith)) h0.le)
  refine ⟨A * (Real.exp B + 1) * (2 + 4 * M) + P * Real.exp B * (1 + 32 * M) + A * (Real.exp B + 1) + 1, ?_, ?_⟩
  · have : 0 ≤ A * (Real.exp B + 1) * (2 + 4 * M) + P * Real.exp B * (1 + 32 * M) + A * (Real.exp B + 1) := by positivity
    linarith
  intro eps σ τ eta v W a b E E' useH p he hσ1 hτ1 heps hab h1 hW hv hE hE'
  have hσ0 := he.nonneg
  have hτ0 := hv.nonneg
  have hlt : a < b := by linarith
  obtain ⟨w, v0, wM, vE, -, vB, wB, vd, -, -⟩ := sampled hM hlt h1 hW hv hτ1 hE
  obtain ⟨-, -, -, vE', -, -, -, -, -, -⟩ := sampled hM hlt h1 hW hv hτ1 hE'
  set h := b - a with hh
  have h0 : 0 < h := by linarith
  have tb := tau_bound hM hτ1 h0.le h1
  have tn := tau_nonneg hM0 hτ0 h0.le
  unfold tau at vd tb tn
  have hΔ : |E' - E| ≤ 2 * M := (abs_sub _ _).trans (by linarith)
  have size : ∀ {l : PL} {n : ℕ}, (∀ m ∈ l, n ≤ m.ord) → Good 0 l → Hom 1 l → bnd B l + bndD B l ≤ P →
      |eval v h 1 l / D| ≤ P * (h ^ n + h * (τ + 31 * M * h ^ 16)) ∧ |eval v h 1 l / D| ≤ Q := by
    intro l n hn hg hh' hb
    have k := (entry_size hB h0 h1 wM vB wB vd hn hg hh').trans (mul_le_mul_of_nonneg_right hb (by positivity))
    refine ⟨k, k.trans ?_⟩
    rw [hQ]
    refine mul_le_mul_of_nonneg_left ?_ hPP
    have : h ^ n ≤ 1 := pow_le_one₀ h0.le h1
    have : h * (τ + 31 * M * h ^ 16) ≤ 1 * (τ + 31 * M * h ^ 16) := mul_le_mul_of_nonneg_right h1 tn
    linarith
  have out : ∀ (N : ℕ) (hN : 3 ≤ N) (hN' : N ≤ 10) (hor : ℕ → M2 ℝ) (f : ℕ → PL), (∀ i, p.of (hor i) = eval v h 1 (f i) / D) → (∀ i < N, Good 0 (f i)) → (∀ i < N, Hom 1 (f i)) →
      (∀ i < N, bnd B (f i) + bndD B (f i) ≤ P) → (∀ m ∈ f (N - 1), 15 ≤ m.ord) →
      |p.of (body N hor (eta N ((v 0 - E') * (h * h))) (v 0 - E') h).t - p.of (body N hor (eta N ((v 0 - E) * (h * h))) (v 0 - E) h).t -
        (E' - E) * p.of (body N hor (eta N ((v 0 - E) * (h * h))) (v 0 - E) h).dt| ≤
        (A * (Real.exp B + 1) * (2 + 4 * M) + P * Real.exp B * (1 + 32 * M) + A * (Real.exp B + 1) + 1) * (h * (E' - E) ^ 2 + |E' - E| * (h ^ 17 + h * τ) + σ) ∧
      |p.of (body N hor (eta N ((v 0 - E) * (h * h))) (v 0 - E) h).dt| ≤ (A * (Real.exp B + 1) * (2 + 4 * M) + P * Real.exp B * (1 + 32 * M) + A * (Real.exp B + 1) + 1) * h := by
    intro N hN hN' hor f hf g1 g2 g3 g4
    obtain ⟨c1, c2⟩ := common N hN hN' σ τ eta hor h (v 0 - E) (v 0 - E') (E' - E) p he hσ1 hτ0 h0 h1 vE vE' (by ring) hΔ
      (fun i hi => by rw [hf]; exact (size (n := 0) (fun m _ => Nat.zero_le _) (g1 i hi) (g2 i hi) (g3 i hi)).2)
      (by rw [hf]; exact (size g4 (g1 _ (by omega)) (g2 _ (by omega)) (g3 _ (by omega))).1)
    have y0 : 0 ≤ A * (Real.exp B + 1) * (2 + 4 * M) + P * Real.exp B * (1 + 32 * M) := by positivity
    have y1 : 0 ≤ A * (Real.exp B + 1) := by positivity
    exact ⟨c1.trans (mul_le_mul_of_nonneg_right (by linarith) (by positivity)), c2.trans (mul_le_mul_of_nonneg_right (by linarith) h0.le)⟩
  have hcalc : ∀ F, calculateTWith eps eta (mkSec h v) F h useH = if useH then calcH eta (mkSec h v) F else calcDelta eta (mkSec h v) F h := by
    intro F
    have hs : (mkSec h v : TSec ℝ).h = h := rfl
    unfold calculateTWith Eta.absK
    simp only [ccmp_lt, ccmp_le, hs, h0.not_gt, decide_false, Bool.false_eq_true, if_false, sub_self, lt_irrefl, heps, decide_true, Bool.and_true]
    rw [if_neg (by simpa using hab)]
  rw [hcalc, hcalc]
  cases useH with
  | true =>
    simp only [if_true]
    exact out 10 (by norm_num) le_rfl (mkSec h v).coeffH (hp p.sel) (fun i => coeffH_of p h v i) (fun i _ => hp_good p i) (fun i _ => hp_hom p i)
      (fun i hi => (hP1 p i hi).trans (by linarith)) (hp9_ord p)
  | false =>
    simp only [Bool.false_eq_true, if_false]
    exact out 9 (by norm_num) (by norm_num) (fun i => horner ((mkSec h v).coeff i) h hmaxDelta) (rp p.sel)
      (fun i => by rw [hor_eq p h0.ne', div_self h0.ne']) (fun i _ => rp_good p i) (fun i hi => rp_hom p hi)
      (fun i hi => (hP2 p i hi).trans (by linarith)) (rp8_ord p)

end Verif.CalcT
