import Verif.Lemmas.FloquetSign
import Verif.Lemmas.FloquetNumber

/-!
# The list of eigenvalues of a coupled problem
-/
namespace Verif.Solver
open Verif Verif.Mesh Verif.YT Verif.Spec Verif.Cross Verif.Prufer
open Real (pi)

variable {W : Sec ℝ → ℝ → ℝ} {secs : List (Sec ℝ)} {dmin dmax vlo vhi : ℝ}

theorem sgnL_ne {u : ℝ × ℝ} (hu : u.1 ≠ 0 ∨ u.2 ≠ 0) : sgnL u ≠ 0 := by
  unfold sgnL
  split
  · rename_i e; exact hu.resolve_left (fun q => q e)
  · assumption

theorem sgnR_ne {u : ℝ × ℝ} (hu : u.1 ≠ 0 ∨ u.2 ≠ 0) : sgnR u ≠ 0 := by
  unfold sgnR
  split
  · rename_i e; exact neg_ne_zero.mpr (hu.resolve_left (fun q => q e))
  · assumption

/-- The trace at the separated eigenvalues alternates. -/
theorem sep_of_problem (h : BoundedProblem W secs dmin dmax vlo vhi) {k : M2 ℝ} (hk : k.a * k.d - k.b * k.c = 1) {c dc s ds : ℝ → ℝ → ℝ} (hF : Fundamental W secs dmin c dc s ds) {u : ℝ × ℝ}
    (hu : u.1 ≠ 0 ∨ u.2 ≠ 0) {lam : ℕ → ℝ} (hl : ∀ n E, IsEigenvalueNr W secs dmin dmax u (img k u) n E ↔ E = lam n) :
    Sep (fun E => trK k (c E dmax) (dc E dmax) (s E dmax) (ds E dmax)) (fun E => crossK k u (c E dmax) (dc E dmax) (s E dmax) (ds E dmax)) (decide (0 < sgnL u * sgnR (img k u))) lam := by
  have hR := img_ne hk hu
  have n1 : 0 ≤ |u.1 * u.2| / u.1 ^ 2 := by positivity
  have n2 : 0 ≤ |(img k u).1 * (img k u).2| / (img k u).1 ^ 2 := by positivity
  obtain ⟨m, hm⟩ : ∃ m, m = 1 + |u.1 * u.2| / u.1 ^ 2 + |(img k u).1 * (img k u).2| / (img k u).1 ^ 2 := ⟨_, rfl⟩
  obtain ⟨lam', hs, hn, he, -, hlow⟩ := C112_oscillation W secs dmin dmax vlo vhi m u (img k u) h hu hR (by linarith)
    (by
      by_cases h0 : u.1 = 0
      · rw [h0]; simp
      · have : |u.1 * u.2| ≤ m * u.1 ^ 2 := by rw [← div_le_iff₀ (by positivity)]; linarith
        linarith [neg_abs_le (u.1 * u.2)])
    (by
      by_cases h0 : (img k u).1 = 0
      · rw [h0]; simp
      · have : |(img k u).1 * (img k u).2| ≤ m * (img k u).1 ^ 2 := by rw [← div_le_iff₀ (by positivity)]; linarith
        linarith [le_abs_self ((img k u).1 * (img k u).2)])
  have e : lam' = lam := funext fun n => (hl n _).mp ((hn n _).mpr rfl)
  subst e
  have tr : ∀ n, (0 < (-1 : ℝ) ^ n * (sgnL u * sgnR (img k u)) → 2 ≤ trK k (c (lam' n) dmax) (dc (lam' n) dmax) (s (lam' n) dmax) (ds (lam' n) dmax)) ∧
      ((-1 : ℝ) ^ n * (sgnL u * sgnR (img k u)) < 0 → trK k (c (lam' n) dmax) (dc (lam' n) dmax) (s (lam' n) dmax) (ds (lam' n) dmax) ≤ -2) := fun n => by
    obtain ⟨m, -, -, h1, h2⟩ := trace_at_eigen h hk hF hu ((hn n _).mpr rfl)
    exact trace_sign h1 h2
  have ne : sgnL u * sgnR (img k u) ≠ 0 := mul_ne_zero (sgnL_ne hu) (sgnR_ne hR)
  refine ⟨hs, fun E => (cross_of_eigen h hF hu E).trans (he E), fun x => ?_, fun j => ?_, fun j => ?_⟩
  · have hlt := h.lt
    have hL : 0 < dmax - dmin := by linarith
    obtain ⟨n, hn⟩ := exists_nat_gt (1 + |x - vlo| * ((dmax - dmin) / pi) ^ 2)
    have p1 : 0 ≤ |x - vlo| * ((dmax - dmin) / pi) ^ 2 := by positivity
    have hn1 : (1 : ℝ) ≤ n := by linarith
    refine ⟨n + 1, lt_of_lt_of_le ?_ (hlow n (by exact_mod_cast hn1))⟩
    have e : (n * pi / (dmax - dmin)) ^ 2 = n ^ 2 / ((dmax - dmin) / pi) ^ 2 := by
      have := Real.pi_pos
      field_simp
    have p2 : 0 < ((dmax - dmin) / pi) ^ 2 := by have := Real.pi_pos; positivity
    have : x - vlo < (n * pi / (dmax - dmin)) ^ 2 := by
      rw [e, lt_div_iff₀ p2]
      have a1 := mul_le_mul_of_nonneg_right (le_abs_self (x - vlo)) p2.le
      nlinarith
    linarith
  · have t := tr (2 * j)
    rw [pow_mul, neg_one_sq, one_pow, one_mul] at t
    by_cases hp : 0 < sgnL u * sgnR (img k u)
    · simp only [hp, decide_true, if_true]; exact t.1 hp
    · simp only [hp, decide_false, Bool.false_eq_true, if_false]; exact t.2 (lt_of_le_of_ne (not_lt.mp hp) ne)
  · have t := tr (2 * j + 1)
    rw [pow_succ, pow_mul, neg_one_sq, one_pow, one_mul] at t
    by_cases hp : 0 < sgnL u * sgnR (img k u)
    · simp only [hp, decide_true, if_true]; exact t.2 (by linarith)
    · simp only [hp, decide_false, Bool.false_eq_true, if_false]
      have := lt_of_le_of_ne (not_lt.mp hp) ne
      exact t.1 (by linarith)

/-- The lowest eigenfunction does not vanish inside. -/
theorem ground_pos (h : BoundedProblem W secs dmin dmax vlo vhi) {L R : ℝ × ℝ} (hL : 0 < L.1 ∨ (L.1 = 0 ∧ 0 < L.2)) {E : ℝ} (hE : IsEigenvalueNr W secs dmin dmax L R 0 E) {y dy : ℝ → ℝ}
    (hy : SolvesMesh W E secs y dy) (y0 : y dmin = L.1) (dy0 : dy dmin = L.2) : ∀ x ∈ Set.Ioo dmin dmax, 0 < y x := by
  obtain ⟨K, hK, ok⟩ := h.okOne E
  have hlt := h.lt
  have aI : dmin ∈ Set.Icc dmin dmax := ⟨le_rfl, hlt.le⟩
  obtain ⟨g, dg, hg, ⟨x, hx, hne⟩, l1, -, fin, card⟩ := hE
  have emp := (Set.ncard_eq_zero fin).mp card
  have g0 : ¬ (g dmin = 0 ∧ dg dmin = 0) := fun ⟨e1, e2⟩ => hne (mesh_zero hK ok hg aI (by rw [e1, e2]; simp [sz]) hx).1
  -- multiples of each other
  have q := hy.comb hg (g dmin * L.1 + dg dmin * L.2) (-(L.1 ^ 2 + L.2 ^ 2))
  have zero := fun x hx => mesh_zero hK ok q (x0 := dmin) aI (by
    rw [y0, dy0]
    have e1 : (g dmin * L.1 + dg dmin * L.2) * L.1 + -(L.1 ^ 2 + L.2 ^ 2) * g dmin = 0 := by linear_combination -L.2 * l1
    have e2 : (g dmin * L.1 + dg dmin * L.2) * L.2 + -(L.1 ^ 2 + L.2 ^ 2) * dg dmin = 0 := by linear_combination L.1 * l1
    rw [e1, e2]; simp [sz]) (x := x) hx
  have hn : 0 < L.1 ^ 2 + L.2 ^ 2 := by rcases hL with h | ⟨-, h⟩ <;> positivity
  have nz : ∀ x ∈ Set.Ioo dmin dmax, y x ≠ 0 := fun x hx e => by
    have z := (zero x ⟨hx.1.le, hx.2.le⟩).1
    rw [e, mul_zero, zero_add] at z
    have : g x = 0 := (mul_eq_zero.mp z).resolve_left (by linarith)
    have : x ∈ ({x ∈ Set.Ioo dmin dmax | g x = 0} : Set ℝ) := ⟨hx, this⟩
    rw [emp] at this
    exact this
  have rr := hy.right ok
  obtain ⟨x0, hx0, px0⟩ : ∃ x ∈ Set.Ioo dmin dmax, 0 < y x := by
    by_contra hc
    push Not at hc
    rcases hL with h1 | ⟨h1, h2⟩
    · have cw : ContinuousWithinAt y (Set.Ici dmin) dmin := (rr.d1 dmin ⟨le_rfl, hlt⟩).continuousWithinAt
      have e1 := cw.eventually (lt_mem_nhds (show 0 < y dmin by rw [y0]; exact h1))
      rw [eventually_nhdsWithin_iff, Metric.eventually_nhds_iff] at e1
      obtain ⟨ε, hε, k⟩ := e1
      have m1 : min (dmin + ε / 2) ((dmin + dmax) / 2) ≤ dmin + ε / 2 := min_le_left _ _
      have m2 : min (dmin + ε / 2) ((dmin + dmax) / 2) ≤ (dmin + dmax) / 2 := min_le_right _ _
      have m3 : dmin < min (dmin + ε / 2) ((dmin + dmax) / 2) := lt_min (by linarith) (by linarith)
      have a := k (y := min (dmin + ε / 2) ((dmin + dmax) / 2)) (by rw [Real.dist_eq, abs_of_pos (by linarith)]; linarith) m3.le
      have b := hc _ ⟨m3, by linarith⟩
      linarith
    · have hd := rr.d1 dmin ⟨le_rfl, hlt⟩
      have e0 := hasDerivWithinAt_iff_tendsto_slope.mp hd
      have e1 := e0.eventually (lt_mem_nhds (show 0 < dy dmin by rw [dy0]; exact h2))
      rw [eventually_nhdsWithin_iff, Metric.eventually_nhds_iff] at e1
      obtain ⟨ε, hε, k⟩ := e1
      have m1 : min (dmin + ε / 2) ((dmin + dmax) / 2) ≤ dmin + ε / 2 := min_le_left _ _
      have m2 : min (dmin + ε / 2) ((dmin + dmax) / 2) ≤ (dmin + dmax) / 2 := min_le_right _ _
      have m3 : dmin < min (dmin + ε / 2) ((dmin + dmax) / 2) := lt_min (by linarith) (by linarith)
      have a := k (y := min (dmin + ε / 2) ((dmin + dmax) / 2)) (by rw [Real.dist_eq, abs_of_pos (by linarith)]; linarith) ⟨m3.le, by simp; exact m3.ne'⟩
      have b := hc _ ⟨m3, by linarith⟩
      rw [slope_def_field, y0, h1] at a
      have := (div_pos_iff_of_pos_right (by linarith)).mp a
      linarith
  intro x hx
  by_contra hc
  push Not at hc
  obtain ⟨z, hz, e⟩ := isPreconnected_Ioo.intermediate_value hx hx0 (rr.c1.mono Set.Ioo_subset_Icc_self) ⟨hc, px0.le⟩
  exact nz z hz e

theorem isAnti_iff (k : M2 ℝ) : Periodic.isAnti k = true ↔ 0 < k.b ∨ (k.b = 0 ∧ k.a < 0) := by
  simp [Periodic.isAnti]

/-- The numbered eigenvalues of the separated problem with directions `u` and `K u`. -/
theorem separated_numbers (h : BoundedProblem W secs dmin dmax vlo vhi) {k : M2 ℝ} (hk : k.a * k.d - k.b * k.c = 1) {u : ℝ × ℝ} (hu : u.1 ≠ 0 ∨ u.2 ≠ 0) :
    ∃ lam : ℕ → ℝ, StrictMono lam ∧ (∀ n E, IsEigenvalueNr W secs dmin dmax u (img k u) n E ↔ E = lam n) ∧ (∀ x, ∃ n, x < lam n) := by
  have hR := img_ne hk hu
  have n1 : 0 ≤ |u.1 * u.2| / u.1 ^ 2 := by positivity
  have n2 : 0 ≤ |(img k u).1 * (img k u).2| / (img k u).1 ^ 2 := by positivity
  obtain ⟨lam', hm, hn, -, -, hlo⟩ := C112_oscillation W secs dmin dmax vlo vhi (1 + |u.1 * u.2| / u.1 ^ 2 + |(img k u).1 * (img k u).2| / (img k u).1 ^ 2) u (img k u) h hu hR (by linarith)
    (by
      by_cases h0 : u.1 = 0
      · rw [h0]; simp
      · have : |u.1 * u.2| ≤ (1 + |u.1 * u.2| / u.1 ^ 2 + |(img k u).1 * (img k u).2| / (img k u).1 ^ 2) * u.1 ^ 2 := by rw [← div_le_iff₀ (by positivity)]; linarith
        linarith [neg_abs_le (u.1 * u.2)])
    (by
      by_cases h0 : (img k u).1 = 0
      · rw [h0]; simp
      · have : |(img k u).1 * (img k u).2| ≤ (1 + |u.1 * u.2| / u.1 ^ 2 + |(img k u).1 * (img k u).2| / (img k u).1 ^ 2) * (img k u).1 ^ 2 := by rw [← div_le_iff₀ (by positivity)]; linarith
        linarith [le_abs_self ((img k u).1 * (img k u).2)])
  refine ⟨lam', hm, hn, fun x => ?_⟩
  have hlt := h.lt
  have hd : 0 < dmax - dmin := sub_pos.mpr hlt
  obtain ⟨n, hn⟩ := exists_nat_gt ((dmax - dmin) / Real.pi * (1 + |x - vlo|))
  have hpi := Real.pi_pos
  have n1 : 1 ≤ n := by
    by_contra hc
    have : n = 0 := by omega
    subst this
    have : 0 < (dmax - dmin) / Real.pi * (1 + |x - vlo|) := by positivity
    push_cast at hn
    linarith
  refine ⟨n + 1, lt_of_lt_of_le ?_ (hlo n n1)⟩
  have e : 1 + |x - vlo| < n * Real.pi / (dmax - dmin) := by
    rw [lt_div_iff₀ hd]
    rw [div_mul_eq_mul_div, div_lt_iff₀ hpi] at hn
    linarith
  have a := le_abs_self (x - vlo)
  have b := abs_nonneg (x - vlo)
  nlinarith [e, a, b]

/-- **The list of the eigenvalues of a coupled problem, with its position among the eigenvalues of every separated problem.** -/
theorem periodic_list (h : BoundedProblem W secs dmin dmax vlo vhi) {k : M2 ℝ} (hk : k.a * k.d - k.b * k.c = 1) : ∃ P, PeriodicList W secs dmin dmax k P ∧
    ∀ u : ℝ × ℝ, (u.1 ≠ 0 ∨ u.2 ≠ 0) → ∀ lam : ℕ → ℝ, (∀ n E, IsEigenvalueNr W secs dmin dmax u (img k u) n E ↔ E = lam n) →
      match Periodic.isAnti k, decide (0 < sgnL u * sgnR (img k u)) with
      | true, true => ∀ j, P (2 * j) ≤ lam (2 * j) ∧ lam (2 * j) ≤ P (2 * j + 1) ∧ P (2 * j + 1) < lam (2 * j + 1) ∧ lam (2 * j + 1) < P (2 * j + 2)
      | true, false => ∀ j, lam (2 * j) < P (2 * j) ∧ P (2 * j) ≤ lam (2 * j + 1) ∧ lam (2 * j + 1) ≤ P (2 * j + 1) ∧ P (2 * j + 1) < lam (2 * j + 2)
      | false, true => ∀ j, lam (2 * j) ≤ P (2 * j) ∧ P (2 * j) < lam (2 * j + 1) ∧ lam (2 * j + 1) < P (2 * j + 1) ∧ P (2 * j + 1) ≤ lam (2 * j + 2)
      | false, false => ∀ j, P (2 * j) < lam (2 * j) ∧ lam (2 * j) < P (2 * j + 1) ∧ P (2 * j + 1) ≤ lam (2 * j + 1) ∧ lam (2 * j + 1) ≤ P (2 * j + 2) := by
  obtain ⟨c, dc, s, ds, hF⟩ := h.fundamental
  have hlt := h.lt
  have bI : dmax ∈ Set.Icc dmin dmax := ⟨hlt.le, le_rfl⟩
  have exl : ∀ u : ℝ × ℝ, (u.1 ≠ 0 ∨ u.2 ≠ 0) → ∃ lam : ℕ → ℝ, ∀ n E, IsEigenvalueNr W secs dmin dmax u (img k u) n E ↔ E = lam n := fun u hu => by
    obtain ⟨lam, -, hn, -⟩ := separated_numbers h hk hu
    exact ⟨lam, hn⟩
  have e1 : ((0 : ℝ), (1 : ℝ)).1 ≠ 0 ∨ ((0 : ℝ), (1 : ℝ)).2 ≠ 0 := .inr one_ne_zero
  obtain ⟨lam, hlam⟩ := exl (0, 1) e1
  have hs := sep_of_problem h hk hF e1 hlam
  have i1 : img k (0, 1) = (k.b, k.d) := by simp [img]
  have sl : sgnL ((0 : ℝ), (1 : ℝ)) = 1 := by simp [sgnL]
  -- the type of the problem
  have type : decide (0 < sgnL ((0 : ℝ), (1 : ℝ)) * sgnR (img k (0, 1))) = Periodic.isAnti k := by
    rw [sl, i1, one_mul, Bool.eq_iff_iff, isAnti_iff, decide_eq_true_iff]
    unfold sgnR
    by_cases hb : k.b = 0
    · rw [if_pos hb]
      rw [hb, zero_mul, sub_zero] at hk
      simp only [hb, lt_irrefl, true_and, false_or]
      constructor
      · intro hd
        by_contra hc
        push Not at hc
        have := mul_nonneg hc (show 0 ≤ -k.d from hd.le)
        linarith
      · intro ha
        by_contra hc
        push Not at hc
        have := mul_nonneg (show 0 ≤ -k.a by linarith) (show 0 ≤ k.d by linarith)
        linarith
    · rw [if_neg hb]; simp [hb]
  rw [type] at hs
  -- a low point
  obtain ⟨t, ht⟩ : ∃ t : ℝ, if Periodic.isAnti k then k.a + k.b * t < 0 else 0 < k.a + k.b * t := by
    by_cases ha : Periodic.isAnti k = true
    · rw [ha]
      simp only [if_true]
      rcases (isAnti_iff k).mp ha with hb | ⟨hb, hb'⟩
      · exact ⟨(-1 - k.a) / k.b, by rw [mul_div_cancel₀ _ hb.ne']; linarith⟩
      · exact ⟨0, by rw [mul_zero, add_zero]; exact hb'⟩
    · have ha' : Periodic.isAnti k = false := by simpa using ha
      rw [ha']
      simp only [Bool.false_eq_true, if_false]
      rw [isAnti_iff] at ha
      push Not at ha
      rcases ha.1.lt_or_eq with hb | hb
      · exact ⟨(1 - k.a) / k.b, by rw [mul_div_cancel₀ _ hb.ne]; linarith⟩
      · refine ⟨0, ?_⟩
        rw [mul_zero, add_zero]
        refine lt_of_le_of_ne (ha.2 hb) (fun e => ?_)
        rw [hb, ← e] at hk; simp at hk
  have u0 : ((1 : ℝ), t).1 ≠ 0 ∨ ((1 : ℝ), t).2 ≠ 0 := .inl one_ne_zero
  obtain ⟨mu, hmu⟩ := exl (1, t) u0
  obtain ⟨m2, a1, a2, a3, a4⟩ := trace_at_eigen h hk hF u0 ((hmu 0 _).mpr rfl)
  obtain ⟨m, b1, b2, b3, b4⟩ := trace_at_eigen h hk hF e1 ((hlam 0 _).mpr rfl)
  have i2 : img k (1, t) = (k.a + k.b * t, k.c + k.d * t) := by simp [img]
  have sl2 : sgnL ((1 : ℝ), t) = 1 := by simp [sgnL]
  have tne : k.a + k.b * t ≠ 0 := by
    cases hh : Periodic.isAnti k <;> rw [hh] at ht
    · simp at ht; exact ht.ne'
    · simp at ht; exact ht.ne
  have sr2 : sgnR (img k (1, t)) = k.a + k.b * t := by rw [i2]; simp [sgnR, tne]
  rw [pow_zero, one_mul, sl2, one_mul, sr2] at a3
  rw [pow_zero, one_mul] at b3
  rw [i2] at a1 a2
  rw [i1] at b1 b2
  simp only [one_mul, zero_mul, zero_add] at a1 a2 b1 b2
  have hE : if Periodic.isAnti k then trK k (c (mu 0) dmax) (dc (mu 0) dmax) (s (mu 0) dmax) (ds (mu 0) dmax) ≤ -2 else 2 ≤ trK k (c (mu 0) dmax) (dc (mu 0) dmax) (s (mu 0) dmax) (ds (mu 0) dmax) := by
    have q := trace_sign a3 a4
    cases hh : Periodic.isAnti k <;> rw [hh] at ht
    · simp at ht ⊢; exact q.1 ht
    · simp at ht ⊢; exact q.2 ht
  have mm : m * m2 < 0 := by
    have q : decide (0 < sgnL ((0 : ℝ), (1 : ℝ)) * sgnR (img k (0, 1))) = Periodic.isAnti k := type
    cases hh : Periodic.isAnti k <;> rw [hh] at ht q
    · simp only [Bool.false_eq_true, if_false] at ht
      have p2 : 0 < m2 := pos_of_mul_pos_left a3 ht.le
      have p1 := of_decide_eq_false q
      have : m < 0 := by
        by_contra hc
        push Not at hc
        have := mul_nonpos_of_nonneg_of_nonpos hc (not_lt.mp p1)
        linarith
      exact mul_neg_of_neg_of_pos this p2
    · simp only [if_true] at ht
      have p1 := of_decide_eq_true q
      have p2 : 0 < m := pos_of_mul_pos_left b3 p1.le
      have : m2 < 0 := by
        by_contra hc
        push Not at hc
        have := mul_nonpos_of_nonneg_of_nonpos hc ht.le
        linarith
      exact mul_neg_of_pos_of_neg p2 this
  have h0 : mu 0 < lam 0 := by
    have sy := (hF.solC (mu 0)).comb (hF.solS (mu 0)) 1 t
    have sz' := hF.solS (lam 0)
    have iC := hF.initC (mu 0)
    have iS := hF.initS (mu 0)
    have jS := hF.initS (lam 0)
    have py := ground_pos h (L := (1, t)) (.inl one_pos) ((hmu 0 _).mpr rfl) sy (by simp [iC.1, iS.1]) (by simp [iC.2, iS.2])
    have pz := ground_pos h (L := (0, 1)) (.inr ⟨rfl, one_pos⟩) ((hlam 0 _).mpr rfl) sz' jS.1 jS.2
    obtain ⟨K1, hK1, ok1⟩ := h.okOne (mu 0)
    obtain ⟨K2, hK2, ok2⟩ := h.okOne (lam 0)
    have g := green (sy.right ok1) (sz'.right ok2) bI
    have ipos : 0 < ∫ x in dmin..dmax, (1 * c (mu 0) x + t * s (mu 0) x) * s (lam 0) x := by
      refine intervalIntegral.intervalIntegral_pos_of_pos_on ?_ (fun x hx => mul_pos (py x hx) (pz x hx)) hlt
      exact ContinuousOn.intervalIntegrable (by rw [Set.uIcc_of_le hlt.le]; exact (sy.right ok1).c1.mul (sz'.right ok2).c1)
    simp only [iC.1, iC.2, iS.1, iS.2, jS.1, jS.2, one_mul, mul_one, mul_zero, zero_add, add_zero] at g
    simp only [one_mul] at ipos
    rw [a1, a2, b1, b2] at g
    have e : m2 * (k.c + k.d * t) * (m * k.b) - m2 * (k.a + k.b * t) * (m * k.d) = -(m * m2) := by linear_combination (-m * m2) * hk
    rw [e] at g
    have : 0 < (lam 0 - mu 0) * ∫ x in dmin..dmax, (c (mu 0) x + t * s (mu 0) x) * s (lam 0) x := by rw [← g]; linarith
    have := pos_of_mul_pos_left this ipos.le
    linarith
  obtain ⟨P, hP, hB⟩ := Sep.list (floquet h hk hF (0, 1)) (Periodic.isAnti k) hs h0 hE
  refine ⟨P, ⟨hP.mono, fun E => ?_, fun n => ⟨hP.simple n, ?_⟩, hP.three⟩, fun u hu lamu hlu => ?_⟩
  · obtain ⟨K, hK, ok⟩ := h.okOne E
    obtain ⟨-, -, -, -, -, -, -, -, -, -, -, det, -⟩ := monodromy_deriv h hF E
    rw [← perDet_zero hK hlt ok k (hF.solC E) (hF.solS E) (hF.initC E) (hF.initS E), perDet_eq hk det, ← hP.roots E]
    simp only [Set.mem_univ, and_true]
    constructor <;> intro q <;> linarith
  · rintro (e | ⟨i, rfl, e⟩)
    · exact hP.dbl n e
    · rw [← e]; exact hP.dbl i e
  · exact Sep.position (floquet h hk hF u) hP hB (sep_of_problem h hk hF hu hlu)

end Verif.Solver
