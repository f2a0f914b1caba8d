import Verif.Props.PeriodicSearch

/-!
# C131 for the free periodic problem: potential `0` on `[0, 1]`, `K` the identity
-/
namespace Verif.Periodic
open Verif.Mesh Verif.YT Verif.Solver

/-- A free solution on one sector, from derivatives on the whole line. -/
theorem free_solves {E : ℝ} {y dy : ℝ → ℝ} (h1 : ∀ x, HasDerivAt y (dy x) x) (h2 : ∀ x, HasDerivAt dy (-E * y x) x) : SolvesMesh (fun _ _ => 0) E [⟨0, 1, .forward⟩] y dy := fun s _ =>
  ⟨fun x _ => (h1 x).hasDerivWithinAt, fun x _ => ((h2 x).congr_deriv (by ring)).hasDerivWithinAt⟩

theorem cos_sin_deriv (w x : ℝ) : HasDerivAt (fun x => Real.cos (w * x)) (-(w * Real.sin (w * x))) x ∧ HasDerivAt (fun x => Real.sin (w * x)) (w * Real.cos (w * x)) x := by
  have h := (hasDerivAt_id x).const_mul w
  simp only [id, mul_one] at h
  exact ⟨h.cos.congr_deriv (by ring), h.sin.congr_deriv (by ring)⟩

theorem cosh_sinh_deriv (w x : ℝ) : HasDerivAt (fun x => Real.cosh (w * x)) (w * Real.sinh (w * x)) x ∧ HasDerivAt (fun x => Real.sinh (w * x)) (w * Real.cosh (w * x)) x := by
  have h := (hasDerivAt_id x).const_mul w
  simp only [id, mul_one] at h
  exact ⟨h.cosh.congr_deriv (by ring), h.sinh.congr_deriv (by ring)⟩

/-- The fundamental system of the free problem. -/
theorem free_fundamental : ∃ c dc s ds : ℝ → ℝ → ℝ, Fundamental (fun _ _ => 0) [⟨0, 1, .forward⟩] 0 c dc s ds ∧
    (∀ E, 0 < E → ∀ w, w = Real.sqrt E → c E 1 = Real.cos w ∧ dc E 1 = -(w * Real.sin w) ∧ s E 1 = Real.sin w / w ∧ ds E 1 = Real.cos w) ∧
    (c 0 1 = 1 ∧ dc 0 1 = 0 ∧ s 0 1 = 1 ∧ ds 0 1 = 1) ∧ (∀ E < 0, perDet ⟨1, 0, 0, 1⟩ (c E 1) (dc E 1) (s E 1) (ds E 1) < 0) := by
  have pos : ∀ E : ℝ, 0 < E → ∃ c dc s ds : ℝ → ℝ, SolvesMesh (fun _ _ => 0) E [⟨0, 1, .forward⟩] c dc ∧ SolvesMesh (fun _ _ => 0) E [⟨0, 1, .forward⟩] s ds ∧ (c 0 = 1 ∧ dc 0 = 0) ∧ (s 0 = 0 ∧ ds 0 = 1) ∧
      (∀ w, w = Real.sqrt E → c 1 = Real.cos w ∧ dc 1 = -(w * Real.sin w) ∧ s 1 = Real.sin w / w ∧ ds 1 = Real.cos w) := fun E hE => by
    obtain ⟨w, hw⟩ : ∃ w, w = Real.sqrt E := ⟨_, rfl⟩
    have w0 : 0 < w := by rw [hw]; exact Real.sqrt_pos.mpr hE
    have ww : w * w = E := by rw [hw]; exact Real.mul_self_sqrt hE.le
    refine ⟨fun x => Real.cos (w * x), fun x => -(w * Real.sin (w * x)), fun x => Real.sin (w * x) / w, fun x => Real.cos (w * x), free_solves (fun x => (cos_sin_deriv w x).1) (fun x => ?_), free_solves (fun x => ?_) (fun x => ?_), by simp, by simp, fun w' hw' => ?_⟩
    · exact ((cos_sin_deriv w x).2.const_mul w).neg.congr_deriv (by rw [← ww]; ring)
    · exact ((cos_sin_deriv w x).2.div_const w).congr_deriv (by field_simp)
    · exact (cos_sin_deriv w x).1.congr_deriv (by rw [← ww]; field_simp)
    · rw [← hw] at hw'
      subst hw'
      simp
  have neg : ∀ E : ℝ, E < 0 → ∃ c dc s ds : ℝ → ℝ, SolvesMesh (fun _ _ => 0) E [⟨0, 1, .forward⟩] c dc ∧ SolvesMesh (fun _ _ => 0) E [⟨0, 1, .forward⟩] s ds ∧ (c 0 = 1 ∧ dc 0 = 0) ∧ (s 0 = 0 ∧ ds 0 = 1) ∧
      perDet ⟨1, 0, 0, 1⟩ (c 1) (dc 1) (s 1) (ds 1) < 0 := fun E hE => by
    obtain ⟨w, hw⟩ : ∃ w, w = Real.sqrt (-E) := ⟨_, rfl⟩
    have w0 : 0 < w := by rw [hw]; exact Real.sqrt_pos.mpr (by linarith)
    have ww : w * w = -E := by rw [hw]; exact Real.mul_self_sqrt (by linarith)
    refine ⟨fun x => Real.cosh (w * x), fun x => w * Real.sinh (w * x), fun x => Real.sinh (w * x) / w, fun x => Real.cosh (w * x), free_solves (fun x => (cosh_sinh_deriv w x).1) (fun x => ?_), free_solves (fun x => ?_) (fun x => ?_), by simp, by simp, ?_⟩
    · exact ((cosh_sinh_deriv w x).2.const_mul w).congr_deriv (by rw [show -E = w * w from ww.symm]; ring)
    · exact ((cosh_sinh_deriv w x).2.div_const w).congr_deriv (by field_simp)
    · exact (cosh_sinh_deriv w x).1.congr_deriv (by rw [show -E = w * w from ww.symm]; field_simp)
    · have h1 : 1 < Real.cosh w := Real.one_lt_cosh.mpr w0.ne'
      have h2 := Real.cosh_sq w
      have e : Real.sinh w / w * (w * Real.sinh w) = Real.sinh w ^ 2 := by field_simp
      simp only [perDet, mul_one, sub_zero, e]
      nlinarith
  have zero : SolvesMesh (fun _ _ => 0) 0 [⟨0, 1, .forward⟩] (fun _ => 1) (fun _ => 0) ∧ SolvesMesh (fun _ _ => 0) 0 [⟨0, 1, .forward⟩] (fun x => x) (fun _ => 1) :=
    ⟨free_solves (fun x => hasDerivAt_const _ _) (fun x => (hasDerivAt_const x (0 : ℝ)).congr_deriv (by ring)), free_solves (fun x => hasDerivAt_id x) (fun x => (hasDerivAt_const x (1 : ℝ)).congr_deriv (by ring))⟩
  have all : ∀ E : ℝ, ∃ c dc s ds : ℝ → ℝ, SolvesMesh (fun _ _ => 0) E [⟨0, 1, .forward⟩] c dc ∧ SolvesMesh (fun _ _ => 0) E [⟨0, 1, .forward⟩] s ds ∧ (c 0 = 1 ∧ dc 0 = 0) ∧ (s 0 = 0 ∧ ds 0 = 1) ∧
      (0 < E → ∀ w, w = Real.sqrt E → c 1 = Real.cos w ∧ dc 1 = -(w * Real.sin w) ∧ s 1 = Real.sin w / w ∧ ds 1 = Real.cos w) ∧
      (E = 0 → c 1 = 1 ∧ dc 1 = 0 ∧ s 1 = 1 ∧ ds 1 = 1) ∧ (E < 0 → perDet ⟨1, 0, 0, 1⟩ (c 1) (dc 1) (s 1) (ds 1) < 0) := fun E => by
    rcases lt_trichotomy E 0 with q | q | q
    · obtain ⟨c, dc, s, ds, a1, a2, a3, a4, a5⟩ := neg E q
      exact ⟨c, dc, s, ds, a1, a2, a3, a4, fun r => absurd r (not_lt.mpr q.le), fun r => absurd r q.ne, fun _ => a5⟩
    · subst q
      exact ⟨_, _, _, _, zero.1, zero.2, by simp, by simp, fun r => absurd r (lt_irrefl _), by simp, fun r => absurd r (lt_irrefl _)⟩
    · obtain ⟨c, dc, s, ds, a1, a2, a3, a4, a5⟩ := pos E q
      exact ⟨c, dc, s, ds, a1, a2, a3, a4, fun _ => a5, fun r => absurd r q.ne', fun r => absurd r (not_lt.mpr q.le)⟩
  choose c dc s ds a1 a2 a3 a4 a5 a6 a7 using all
  exact ⟨c, dc, s, ds, ⟨a1, a2, a3, a4⟩, a5, a6 0 rfl, a7⟩

open Real (pi)

abbrev freeSecs : List (Sec ℝ) := [⟨0, 1, .forward⟩]
abbrev freeK : M2 ℝ := ⟨1, 0, 0, 1⟩

theorem sin_zero_iff {E : ℝ} {a : ℕ} (h0 : (pi * (2 * a)) ^ 2 < E) (h1 : E < (pi * (2 * a + 2)) ^ 2) (h : Real.sin (Real.sqrt E) = 0) : E = (pi * (2 * a + 1)) ^ 2 := by
  have hp := Real.pi_pos
  have hE : 0 ≤ E := (sq_nonneg _).trans h0.le
  obtain ⟨n, hn⟩ := Real.sin_eq_zero_iff.mp h
  have l : pi * (2 * a) < Real.sqrt E := by rw [show pi * (2 * a) = Real.sqrt ((pi * (2 * a)) ^ 2) from (Real.sqrt_sq (by positivity)).symm]; exact Real.sqrt_lt_sqrt (by positivity) h0
  have u : Real.sqrt E < pi * (2 * a + 2) := by rw [show pi * (2 * a + 2) = Real.sqrt ((pi * (2 * a + 2)) ^ 2) from (Real.sqrt_sq (by positivity)).symm]; exact Real.sqrt_lt_sqrt hE h1
  rw [← hn] at l u
  have l' : (2 * a : ℝ) < n := by nlinarith
  have u' : (n : ℝ) < 2 * a + 2 := by nlinarith
  have l'' : (2 * a : ℤ) < n := by exact_mod_cast l'
  have u'' : n < 2 * a + 2 := by exact_mod_cast u'
  have e : n = 2 * a + 1 := by omega
  have := Real.sq_sqrt hE
  rw [← this, ← hn, e]
  push_cast
  ring

/-- The free periodic problem with exact angles and the exact determinant. -/
theorem free_exact : ∃ (P : ℕ → ℝ) (o : Oracle ℝ), PeriodicList (fun _ _ => 0) freeSecs 0 1 freeK P ∧ ExactOracle (fun _ _ => 0) freeSecs 0 1 freeK o ∧ (∀ E, -1 < (o.theta E).1 ∧ -1 < (o.theta E).2) ∧ AngleLimits o ∧
    P 0 = 0 ∧ P 1 = 4 * pi ^ 2 ∧ P 2 = 4 * pi ^ 2 ∧ (∀ n, ∃ m : ℕ, P n = (2 * pi * m) ^ 2) ∧
    o.theta (pi ^ 2) = (1, 1) ∧ o.theta (9 * pi ^ 2) = (3, 3) ∧ (∀ E < 4 * pi ^ 2, o.maxTheta E < 2) ∧
    (∀ E, 0 < E → o.det E = 4 * (Real.cos (Real.sqrt E) - 1)) ∧ (∀ E, 0 < E → o.ddet E = -(2 * Real.sin (Real.sqrt E) / Real.sqrt E)) := by
  have hp := Real.pi_pos
  have h := free_problem
  have hd : freeK.a * freeK.d - freeK.b * freeK.c = 1 := by norm_num [freeK]
  have g : RowSign freeK := by norm_num [RowSign, freeK]
  have hA : isAnti freeK = false := by simp [isAnti, freeK]
  obtain ⟨P, ⟨hP, hI⟩, -⟩ := C128_numbering h hd
  obtain ⟨o, ho, h1, h2, pos, ⟨F, hF⟩, hG⟩ := oracle_exists h hd
  obtain ⟨c, dc, s, ds, hFu, f1, f2, f3⟩ := free_fundamental
  obtain ⟨det, hdet⟩ : ∃ det : ℝ → ℝ, det = fun E => -2 * perDet freeK (c E 1) (dc E 1) (s E 1) (ds E 1) := ⟨_, rfl⟩
  have diff : ∀ E, HasDerivAt det (deriv det E) E := fun E => by
    obtain ⟨-, -, -, c', dc', s', ds', b1, b2, b3, b4, -⟩ := monodromy_deriv h hFu E
    have := (((b1.sub_const freeK.a).mul (b4.sub_const freeK.d)).sub ((b3.sub_const freeK.b).mul (b2.sub_const freeK.c))).const_mul (-2)
    have q : DifferentiableAt ℝ det E := by rw [hdet]; exact this.differentiableAt
    exact q.hasDerivAt
  have ex : ExactOracle (fun _ _ => 0) freeSecs 0 1 freeK ⟨o.theta, det, deriv det, o.anti⟩ := ⟨ho, h1, h2, ⟨c, dc, s, ds, hFu, fun E => by rw [hdet]⟩, diff⟩
  have detp : ∀ E, 0 < E → det E = 4 * (Real.cos (Real.sqrt E) - 1) := fun E hE => by
    obtain ⟨w, hw⟩ : ∃ w, w = Real.sqrt E := ⟨_, rfl⟩
    have w0 : w ≠ 0 := by rw [hw]; exact (Real.sqrt_pos.mpr hE).ne'
    obtain ⟨e1, e2, e3, e4⟩ := f1 E hE w hw
    have : Real.sin w / w * (w * Real.sin w) = Real.sin w ^ 2 := by field_simp
    have sc := Real.sin_sq_add_cos_sq w
    rw [hdet]
    simp only [perDet, e1, e2, e3, e4, sub_zero, ← hw]
    linear_combination (-2 : ℝ) * this - 2 * sc
  obtain ⟨-, -, -, -, dz, -⟩ := first_facts h hd g hA hP ex
  simp only at dz
  -- the eigenvalues
  have sq : ∀ n, ∃ m : ℕ, P n = (2 * pi * m) ^ 2 := fun n => by
    have z := (dz (P n)).mpr ⟨n, rfl⟩
    rcases lt_trichotomy (P n) 0 with q | q | q
    · have := f3 _ q
      rw [hdet] at z
      simp only at z
      linarith
    · exact ⟨0, by rw [q]; simp⟩
    · rw [detp _ q] at z
      have c1 : Real.cos (Real.sqrt (P n)) = 1 := by linarith
      obtain ⟨m, hm⟩ := (Real.cos_eq_one_iff _).mp c1
      refine ⟨m.natAbs, ?_⟩
      rw [← Real.sq_sqrt q.le, ← hm, Nat.cast_natAbs, Int.cast_abs, mul_pow _ |(m : ℝ)|, sq_abs]
      ring
  have ev : ∀ m : ℕ, ∃ n, (2 * pi * m) ^ 2 = P n := fun m => by
    rw [← dz]
    rcases Nat.eq_zero_or_pos m with rfl | hm
    · simp only [Nat.cast_zero, mul_zero, ne_eq, OfNat.ofNat_ne_zero, not_false_eq_true, zero_pow]
      rw [hdet]
      simp only [perDet, f2.1, f2.2.1, f2.2.2.1, f2.2.2.2]
      norm_num
    · have m0 : (0 : ℝ) < m := by exact_mod_cast hm
      rw [detp _ (by positivity), Real.sqrt_sq (by positivity), show 2 * pi * m = m * (2 * pi) by ring, Real.cos_nat_mul_two_pi]
      ring
  have p0 : P 0 = 0 := by
    obtain ⟨n, hn⟩ := ev 0
    obtain ⟨m, hm⟩ := sq 0
    have a := hP.mono (Nat.zero_le n)
    rw [← hn] at a
    have b : 0 ≤ P 0 := by rw [hm]; positivity
    simp only [Nat.cast_zero, mul_zero, ne_eq, OfNat.ofNat_ne_zero, not_false_eq_true, zero_pow] at a
    exact le_antisymm a b
  have p01 := ((C128_pairs h hd hP).2 hA).1
  have sqlt : ∀ a b : ℕ, (2 * pi * a) ^ 2 < (2 * pi * b) ^ 2 → a < b := fun a b q => by
    by_contra hc
    have : (b : ℝ) ≤ a := by exact_mod_cast not_lt.mp hc
    have := pow_le_pow_left₀ (by positivity) (mul_le_mul_of_nonneg_left this (show 0 ≤ 2 * pi by positivity)) 2
    linarith
  have sqle : ∀ a b : ℕ, a ≤ b → (2 * pi * a) ^ 2 ≤ (2 * pi * b) ^ 2 := fun a b q => by
    have : (a : ℝ) ≤ b := by exact_mod_cast q
    exact pow_le_pow_left₀ (by positivity) (mul_le_mul_of_nonneg_left this (show 0 ≤ 2 * pi by positivity)) 2
  have p1 : P 1 = 4 * pi ^ 2 := by
    obtain ⟨m, hm⟩ := sq 1
    obtain ⟨n, hn⟩ := ev 1
    have m1 : 0 < m := sqlt 0 m (by rw [← hm]; simpa [p0] using p01)
    have n1 : 1 ≤ n := by
      by_contra hc
      obtain rfl : n = 0 := by omega
      rw [p0] at hn
      have : 0 < (2 * pi * ((1 : ℕ) : ℝ)) ^ 2 := by positivity
      linarith
    have := hP.mono n1
    rw [← hn] at this
    have ge := sqle 1 m (by omega)
    rw [← hm] at ge
    have e := le_antisymm this ge
    rw [e]; push_cast; ring
  have dbl : IsDoubleEigenvalue (fun _ _ => 0) freeSecs 0 1 freeK (4 * pi ^ 2) := by
    rw [double_iff h hFu]
    have e : Real.sqrt (4 * pi ^ 2) = 2 * pi := by rw [show 4 * pi ^ 2 = (2 * pi) ^ 2 by ring]; exact Real.sqrt_sq (by positivity)
    obtain ⟨e1, e2, e3, e4⟩ := f1 (4 * pi ^ 2) (by positivity) (2 * pi) e.symm
    rw [e1, e2, e3, e4]
    simp [freeK]
  have p2 : P 2 = 4 * pi ^ 2 := by
    rw [← p1] at dbl
    rcases (hP.double 1).mp dbl with q | ⟨m, q, e⟩
    · rw [← q, p1]
    · obtain rfl : m = 0 := by omega
      exact absurd e p01.ne
  have p3 : P 3 = (2 * pi * (2 : ℕ)) ^ 2 := by
    obtain ⟨m, hm⟩ := sq 3
    obtain ⟨n, hn⟩ := ev 2
    have t := hP.twice 1
    have m1 : 1 < m := sqlt 1 m (by rw [← hm]; rw [p1] at t; push_cast; linarith)
    have n1 : 3 ≤ n := by
      by_contra hc
      have q := hP.mono (show n ≤ 2 by omega)
      rw [p2, ← hn] at q
      push_cast at q
      nlinarith [sq_nonneg pi, pow_pos hp 2]
    have := hP.mono n1
    rw [← hn] at this
    have ge := sqle 2 m (by omega)
    rw [← hm] at ge
    exact le_antisymm this ge
  -- the separated problems
  have sep : ∀ (t : ℝ) (θ : ℝ → ℝ), t = 1 ∨ t = -1 → CountsEigenvalues (fun _ _ => 0) freeSecs 0 1 (1, t) (img freeK (1, t)) θ → θ (pi ^ 2) = 1 ∧ θ (9 * pi ^ 2) = 3 ∧ ∀ E < 4 * pi ^ 2, θ E < 2 := by
    intro t θ ht hθ
    have ut : ((1 : ℝ), t).1 ≠ 0 ∨ ((1 : ℝ), t).2 ≠ 0 := .inl one_ne_zero
    obtain ⟨lam, -, hl, -⟩ := separated_numbers h hd ut
    obtain ⟨-, -, C, -⟩ := hI _ ut lam hl
    have S := sep_of_problem h hd hFu ut hl
    have sg : 0 < sgnL ((1 : ℝ), t) * sgnR (img freeK (1, t)) := by simp [sgnL, sgnR, img, freeK]
    have c0 := C hA sg 0
    have c1 := C hA sg 1
    simp only [mul_zero, zero_add, mul_one] at c0 c1
    norm_num at c1
    have tt : t * t = 1 := by rcases ht with rfl | rfl <;> norm_num
    have key : ∀ n, 0 < lam n → Real.sin (Real.sqrt (lam n)) = 0 := fun n hn => by
      have z := (S.zeros (lam n)).mpr ⟨n, rfl⟩
      obtain ⟨w, hw⟩ : ∃ w, w = Real.sqrt (lam n) := ⟨_, rfl⟩
      have w0 : 0 < w := by rw [hw]; exact Real.sqrt_pos.mpr hn
      obtain ⟨e1, e2, e3, e4⟩ := f1 _ hn w hw
      simp only [crossK, e1, e2, e3, e4, freeK, one_mul, zero_mul, add_zero, zero_add] at z
      rw [← hw]
      have z' : Real.sin w * (w + 1 / w) = 0 := by
        have : t * (Real.cos w + t * (Real.sin w / w)) = t * Real.cos w + (t * t) * (Real.sin w / w) := by ring
        rw [this, tt] at z
        have : Real.sin w * (w + 1 / w) = w * Real.sin w + Real.sin w / w := by ring
        rw [this]; linarith
      rcases mul_eq_zero.mp z' with q | q
      · exact q
      · have : 0 < w + 1 / w := by positivity
        exact absurd q this.ne'
    have l1 : lam 1 = pi ^ 2 := by
      have := sin_zero_iff (E := lam 1) (a := 0) (by simpa [p0] using c0.2.1) (by have := c0.2.2.1; rw [p1] at this; push_cast; linarith) (key 1 (by rw [← p0]; exact c0.2.1))
      rw [this]; push_cast; ring
    have l3 : lam 3 = 9 * pi ^ 2 := by
      have := sin_zero_iff (E := lam 3) (a := 1) (by have := c1.2.1; rw [p2] at this; push_cast; linarith) (by have := c1.2.2.1; rw [p3] at this; push_cast at this ⊢; linarith) (key 3 (by have := c1.2.1; rw [p2] at this; exact lt_trans (by positivity) this))
      rw [this]; push_cast; ring
    refine ⟨?_, ?_, fun E hE => ?_⟩
    · have := (hθ.count 1 (pi ^ 2)).mpr ((hl 1 _).mpr l1.symm)
      simpa using this
    · have := (hθ.count 3 (9 * pi ^ 2)).mpr ((hl 3 _).mpr l3.symm)
      simpa using this
    · have l2 : 4 * pi ^ 2 ≤ lam 2 := by rw [← p1]; exact c0.2.2.2
      have e := (hθ.count 2 (lam 2)).mpr ((hl 2 _).mpr rfl)
      have := hθ.mono (hE.trans_le l2)
      rw [e] at this
      simpa using this
  obtain ⟨a1, a3, a2⟩ := sep 1 _ (.inl rfl) h1
  obtain ⟨b1, b3, b2⟩ := sep (-1) _ (.inr rfl) h2
  have ddp : ∀ E, 0 < E → deriv det E = -(2 * Real.sin (Real.sqrt E) / Real.sqrt E) := fun E hE => by
    have w0 := Real.sqrt_pos.mpr hE
    have q := (((Real.hasDerivAt_cos (Real.sqrt E)).comp E (Real.hasDerivAt_sqrt hE.ne')).sub_const 1).const_mul 4
    have : det =ᶠ[nhds E] fun E => 4 * ((Real.cos ∘ Real.sqrt) E - 1) := by
      filter_upwards [Ioi_mem_nhds hE] with x hx
      exact detp x hx
    rw [(q.congr_of_eventuallyEq this).deriv]
    field_simp
    ring
  refine ⟨P, _, hP, ex, pos, ⟨fun N => ?_, ?_⟩, p0, p1, p2, sq, ?_, ?_, fun E hE => ?_, detp, ddp⟩
  · obtain ⟨n, hn⟩ := exists_nat_ge N
    obtain ⟨E0, hE0⟩ := hG n
    refine ⟨E0, fun E hE => ?_⟩
    have := hE0 E hE
    simp only [Oracle.maxTheta, stdMax, ccmp_lt, decide_eq_true_eq]
    split_ifs <;> linarith
  · refine ⟨min F (pi ^ 2), fun E hE => ?_⟩
    have q1 := hF E (hE.trans (min_le_left _ _))
    have q2 := h1.mono.monotone (hE.trans (min_le_right _ _))
    have q3 := h2.mono.monotone (hE.trans (min_le_right _ _))
    simp only [a1, b1] at q2 q3
    simp only [Oracle.minTheta, Oracle.maxTheta, stdMin, stdMax, ccmp_lt, decide_eq_true_eq]
    constructor <;> split_ifs <;> linarith
  · exact Prod.ext a1 b1
  · exact Prod.ext a3 b3
  · have q1 := a2 E hE
    have q2 := b2 E hE
    simp only [Oracle.maxTheta, stdMax, ccmp_lt, decide_eq_true_eq]
    split_ifs <;> assumption

theorem free_clear {P : ℕ → ℝ} {o : Oracle ℝ} (hA : o.anti = false) (m1 : StrictMono o.minTheta) (m2 : StrictMono o.maxTheta) (pos : ∀ E, -1 < (o.theta E).1 ∧ -1 < (o.theta E).2)
    (p1 : P 1 = 4 * pi ^ 2) (p2 : P 2 = 4 * pi ^ 2) (sq : ∀ n, ∃ m : ℕ, P n = (2 * pi * m) ^ 2) (t1 : o.theta (pi ^ 2) = (1, 1)) (t3 : o.theta (9 * pi ^ 2) = (3, 3))
    (det : ∀ E, 0 < E → o.det E = 4 * (Real.cos (Real.sqrt E) - 1)) (ddet : ∀ E, 0 < E → o.ddet E = -(2 * Real.sin (Real.sqrt E) / Real.sqrt E)) : Clear o P (1 / 10 ^ 8) 3 := by
  have hp := Real.pi_pos
  have hp3 := Real.pi_gt_three
  have P1 : 1 ≤ pi ^ 2 := by nlinarith
  obtain ⟨Q, hQ⟩ : ∃ Q, Q = pi ^ 2 := ⟨_, rfl⟩
  rw [← hQ] at p1 p2 t1 t3 P1
  have z1 : ∀ z, o.minTheta z = 1 → z = Q := fun z hz => m1.injective (by rw [hz]; simp [Oracle.minTheta, stdMin, t1])
  have z1' : ∀ z, o.maxTheta z = 1 → z = Q := fun z hz => m2.injective (by rw [hz]; simp [Oracle.maxTheta, stdMax, t1])
  have z3 : ∀ z, o.maxTheta z = 3 → z = 9 * Q := fun z hz => m2.injective (by rw [hz]; simp [Oracle.maxTheta, stdMax, t3])
  have zn : ∀ z, o.minTheta z ≠ -1 := fun z hz => by
    simp only [Oracle.minTheta, stdMin, ccmp_lt, decide_eq_true_eq] at hz
    have := pos z
    split_ifs at hz <;> linarith [this.1, this.2]
  have mg : ∀ z, (z = Q ∨ z = 9 * Q) → ∀ n, 1 / 10 ^ 8 * max 1 |z| < |z - P n| := fun z hz n => by
    obtain ⟨m, hm⟩ := sq n
    have hm : P n = 4 * (m : ℝ) ^ 2 * Q := by rw [hm, hQ]; ring
    have key : ∀ j : ℤ, (j = 1 ∨ j = 9) → (1 : ℝ) ≤ |(j : ℝ) - 4 * m ^ 2| := fun j hj => by
      have : (1 : ℤ) ≤ |j - 4 * m ^ 2| := Int.one_le_abs (by
        intro e
        have : (4 : ℤ) * m ^ 2 = j := by linarith
        rcases hj with rfl | rfl <;> omega)
      exact_mod_cast this
    obtain ⟨j, hj, e⟩ : ∃ j : ℤ, (j = 1 ∨ j = 9) ∧ z = j * Q := by
      rcases hz with rfl | rfl
      · exact ⟨1, .inl rfl, by simp⟩
      · exact ⟨9, .inr rfl, by simp⟩
    have k := key j hj
    have j9 : (j : ℝ) ≤ 9 ∧ (1 : ℝ) ≤ j := by rcases hj with rfl | rfl <;> norm_num
    have zp : |z| = j * Q := by rw [e, abs_of_nonneg (by nlinarith [j9.2])]
    have zm : max 1 |z| ≤ 9 * Q := by
      rw [zp]
      exact max_le (by linarith) (mul_le_mul_of_nonneg_right j9.1 (by linarith))
    have d : |z - P n| = |(j : ℝ) - 4 * m ^ 2| * Q := by
      rw [e, hm, ← sub_mul, abs_mul, abs_of_nonneg (show 0 ≤ Q by linarith)]
    rw [d]
    have : Q ≤ |(j : ℝ) - 4 * m ^ 2| * Q := le_mul_of_one_le_left (by linarith) k
    linarith
  intro i hi par
  rw [hA, if_neg (by simp)] at par
  obtain rfl | rfl : i = 0 ∨ i = 2 := by omega
  · refine ⟨fun z hz n => ?_, fun h => absurd h (by omega)⟩
    rcases hz with hz | hz
    · refine absurd ?_ (zn z)
      simp [Oracle.findLow] at hz
      linarith
    · refine mg z (.inl (z1' z ?_)) n
      simp [Oracle.findHigh] at hz
      linarith
  · have fl : ∀ z, o.findLow ((2 : ℕ) : ℤ) z = 0 → z = Q := fun z hz => z1 z (by simp [Oracle.findLow] at hz; linarith)
    have fh : ∀ z, o.findHigh ((2 : ℕ) : ℤ) z = 0 → z = 9 * Q := fun z hz => z3 z (by simp [Oracle.findHigh] at hz; linarith)
    refine ⟨fun z hz n => ?_, fun _ => ?_⟩
    · rcases hz with hz | hz
      · exact mg z (.inl (fl z hz)) n
      · exact mg z (.inr (fh z hz)) n
    · refine ⟨4 * Q, by rw [show 2 - 1 = 1 from rfl, p1], by rw [p2], .inl (by rw [show 2 - 1 = 1 from rfl, p1, p2]), ?_⟩
      rintro low high ⟨zL, eL, nL⟩ ⟨zH, eH, nH⟩
      rw [fl zL eL] at nL
      rw [fh zH eH] at nH
      rw [abs_of_nonneg (a := Q) (by linarith), max_eq_right P1] at nL
      rw [abs_of_nonneg (a := 9 * Q) (by linarith), max_eq_right (by linarith)] at nH
      obtain ⟨l1, l2⟩ := abs_le.mp nL
      obtain ⟨r1, r2⟩ := abs_le.mp nH
      have rt : ∀ E k : ℝ, 0 ≤ k → 0 < E → (k ^ 2 * Q < E → k * pi < Real.sqrt E) ∧ (E < k ^ 2 * Q → Real.sqrt E < k * pi) := fun E k hk hE => by
        have e : k * pi = Real.sqrt (k ^ 2 * Q) := by
          rw [hQ, ← mul_pow]
          exact (Real.sqrt_sq (by positivity)).symm
        rw [e]
        exact ⟨fun q => Real.sqrt_lt_sqrt (by positivity) q, fun q => Real.sqrt_lt_sqrt hE.le q⟩
      refine ⟨fun E hE => ?_, fun E hE => ?_, ?_⟩
      · have E0 : 0 < E := by linarith [hE.1]
        have a := (rt E 1 (by norm_num) E0).1 (by linarith [hE.1])
        have b := (rt E 2 (by norm_num) E0).2 (by linarith [hE.2])
        rw [ddet E E0, neg_pos]
        refine div_neg_of_neg_of_pos ?_ (Real.sqrt_pos.mpr E0)
        have := Real.sin_pos_of_pos_of_lt_pi (x := Real.sqrt E - pi) (by linarith) (by linarith)
        rw [Real.sin_sub_pi] at this
        linarith
      · have E0 : 0 < E := by linarith [hE.1]
        have a := (rt E 2 (by norm_num) E0).1 (by linarith [hE.1])
        have b := (rt E 3 (by norm_num) E0).2 (by linarith [hE.2])
        rw [ddet E E0, neg_lt_zero]
        refine div_pos ?_ (Real.sqrt_pos.mpr E0)
        have := Real.sin_pos_of_pos_of_lt_pi (x := Real.sqrt E - 2 * pi) (by linarith) (by linarith)
        rw [Real.sin_sub_two_pi] at this
        linarith
      · obtain ⟨E2, hE2⟩ : ∃ E2, E2 = low + 1 / 100 * (high - low) := ⟨_, rfl⟩
        rw [← hE2]
        have L0 : 0 < low := by linarith
        have E0 : 0 < E2 := by linarith
        rw [det low L0, det E2 E0]
        have a1 := (rt low 0.99 (by norm_num) L0).1 (by norm_num; linarith)
        have b1 := (rt E2 1.02 (by norm_num) E0).1 (by norm_num; linarith)
        have b2 := (rt E2 2 (by norm_num) E0).2 (by norm_num; linarith)
        have ab : Real.sqrt low < Real.sqrt E2 := Real.sqrt_lt_sqrt L0.le (by linarith)
        have := Real.cos_lt_cos_of_nonneg_of_le_pi (x := |Real.sqrt low - pi|) (y := Real.sqrt E2 - pi) (abs_nonneg _) (by linarith) (by
          rw [abs_lt]
          constructor
          · norm_num at a1 b1; linarith
          · linarith)
        rw [Real.cos_abs, Real.cos_sub_pi, Real.cos_sub_pi] at this
        linarith

/-- Non-vacuity of C131 by index: for the free periodic problem the search for the number 0 returns, and all hypotheses hold. -/
example : ∃ (P : ℕ → ℝ) (o : Oracle ℝ) (fuel : Nat) (res : List (Int × ℝ × Int)), PeriodicList (fun _ _ => 0) freeSecs 0 1 freeK P ∧ ExactOracle (fun _ _ => 0) freeSecs 0 1 freeK o ∧ RowSign freeK ∧
    Clear o P (1 / 10 ^ 8) ((1 : ℕ) + 1) ∧ (∀ n, 0 ≤ n → n < 1 → ∀ m : ℕ, 2 / 10 ^ 8 * max 1 |P n| < |P n - 2 ^ m| ∧ 2 / 10 ^ 8 * max 1 |P n| < |P n + 2 ^ m|) ∧
    byIndex o multiplicity (0 : ℕ) (1 : ℕ) fuel = .ok res ∧ ∃ E, |E| ≤ 2 / 10 ^ 8 ∧ (((0 : ℤ), E, 1) ∈ res ∨ ((0 : ℤ), E, 2) ∈ res ∨ ((0 : ℤ) - 1, E, 2) ∈ res) := by
  obtain ⟨P, o, hP, ho, pos, A, p0, p1, p2, sq, t1, t3, t2, det, ddet⟩ := free_exact
  have hA : o.anti = false := by rw [ho.anti]; simp [isAnti, freeK]
  obtain ⟨m1, m2⟩ := strict_theta ho.first.mono ho.second.mono
  have cl := free_clear hA m1 m2 pos p1 p2 sq t1 t3 det ddet
  have cl' : Clear o P (1 / 10 ^ 8) ((1 : ℕ) + 1) := fun i hi => cl i (by push_cast at hi; omega)
  have g : RowSign freeK := by norm_num [RowSign, freeK]
  obtain ⟨fuel, res, hres⟩ := C73_by_index_terminates o A multiplicity (0 : ℕ) (1 : ℕ) (by norm_num)
  have pw : ∀ n, 0 ≤ n → n < 1 → ∀ m : ℕ, 2 / 10 ^ 8 * max 1 |P n| < |P n - 2 ^ m| ∧ 2 / 10 ^ 8 * max 1 |P n| < |P n + 2 ^ m| := fun n _ hn m => by
    obtain rfl : n = 0 := by omega
    have : (1 : ℝ) ≤ 2 ^ m := one_le_pow₀ (by norm_num)
    rw [p0, zero_sub, zero_add, abs_neg, abs_of_nonneg (a := (2 : ℝ) ^ m) (by linarith)]
    norm_num
    linarith
  obtain ⟨q, -⟩ := C131_by_index free_problem (by norm_num [freeK]) g hP ho 0 1 cl' pw (hres fuel le_rfl)
  obtain ⟨E, e1, e2⟩ := q 0 le_rfl (by norm_num)
  refine ⟨P, o, fuel, res, hP, ho, g, cl', pw, hres fuel le_rfl, E, ?_, by simpa using e2⟩
  rw [p0] at e1
  simpa using e1

/-- The integral part. -/
noncomputable def cInt (x : ℝ) : Option ℤ := some (if 0 ≤ x then ⌊x⌋ else ⌈x⌉)

theorem cInt_spec : ∀ x i, cInt x = some i → (0 ≤ x → i ≤ x ∧ x < i + 1) ∧ (x ≤ 0 → x ≤ i ∧ (i : ℝ) < x + 1) := fun x i h => by
  simp only [cInt, Option.some.injEq] at h
  split_ifs at h with c
  · refine ⟨fun _ => by rw [← h]; exact ⟨Int.floor_le x, Int.lt_floor_add_one x⟩, fun q => ?_⟩
    obtain rfl : x = 0 := le_antisymm q c
    rw [← h]; simp
  · exact ⟨fun q => absurd q c, fun _ => by rw [← h]; exact ⟨Int.le_ceil x, Int.ceil_lt_add_one x⟩⟩

/-- Non-vacuity of C131 by energy, and the exception in an example: for the free periodic problem (`V = 0` on `[0, 1]`, eigenvalues `0, 4π², 4π², …`) the search on `[1, 20]` returns, all hypotheses of `C131_by_energy` and `C131_spurious` hold, and the result contains an entry with number 0 between 1 and 20 although there is no eigenvalue in `[1, 20]`. -/
theorem C131_spurious_example : ∃ (P : ℕ → ℝ) (o : Oracle ℝ) (fuel : Nat) (res : List (Int × ℝ × Int)), PeriodicList (fun _ _ => 0) freeSecs 0 1 freeK P ∧ ExactOracle (fun _ _ => 0) freeSecs 0 1 freeK o ∧ RowSign freeK ∧
    (∀ E, -1 < (o.theta E).1 ∧ -1 < (o.theta E).2) ∧ (∀ N : ℕ, N ≤ max 0 (o.maxTheta 20) → Clear o P (1 / 10 ^ 8) (N + 2)) ∧
    byEnergy cInt o multiplicity 1 20 fuel = .ok res ∧ (∃ E, ((0 : ℤ), E, 1) ∈ res) ∧ ∀ E, 1 ≤ E → E ≤ 20 → ¬ IsPeriodicEigenvalue (fun _ _ => 0) freeSecs 0 1 freeK E := by
  obtain ⟨P, o, hP, ho, pos, A, p0, p1, p2, sq, t1, t3, t2, det, ddet⟩ := free_exact
  have hA : o.anti = false := by rw [ho.anti]; simp [isAnti, freeK]
  obtain ⟨m1, m2⟩ := strict_theta ho.first.mono ho.second.mono
  have cl := free_clear hA m1 m2 pos p1 p2 sq t1 t3 det ddet
  have g : RowSign freeK := by norm_num [RowSign, freeK]
  have hp3 := Real.pi_gt_three
  have hp4 := Real.pi_lt_d2
  have Q1 : 9 < pi ^ 2 := by nlinarith
  have Q2 : pi ^ 2 < 10 := by nlinarith
  have tm := t2 20 (by linarith)
  have cl' : ∀ N : ℕ, N ≤ max 0 (o.maxTheta 20) → Clear o P (1 / 10 ^ 8) (N + 2) := fun N hN i hi => by
    have : (N : ℝ) < 2 := hN.trans_lt (max_lt (by norm_num) tm)
    have : N < 2 := by exact_mod_cast this
    exact cl i (by omega)
  have z : o.maxTheta (pi ^ 2) = 1 := by simp [Oracle.maxTheta, stdMax, t1]
  have w : -1 < o.minTheta 1 := by
    simp only [Oracle.minTheta, stdMin, ccmp_lt]
    split_ifs <;> linarith [(pos 1).1, (pos 1).2]
  obtain ⟨a, ha⟩ : ∃ a, cInt (o.minTheta 1) = some a := ⟨_, rfl⟩
  obtain ⟨b, hb⟩ : ∃ b, cInt (o.maxTheta 20) = some b := ⟨_, rfl⟩
  have a0 : 0 ≤ a := by
    obtain ⟨c1, c2⟩ := cInt_spec _ _ ha
    have : (-1 : ℝ) < a := by
      rcases le_total 0 (o.minTheta 1) with q | q
      · linarith [c1 q]
      · linarith [c2 q]
    have : -1 < a := by exact_mod_cast this
    omega
  obtain ⟨fuel, res, hres⟩ := C73_by_energy_terminates cInt o A multiplicity 1 20 a b ha hb a0
  have mx : max 1 |pi ^ 2| = pi ^ 2 := by rw [abs_of_nonneg (by linarith)]; exact max_eq_right (by linarith)
  obtain ⟨E, e, -⟩ := C131_spurious (by rw [← ho.anti, hA]) hP ho pos cInt cInt_spec 1 20 (pi ^ 2) (by rw [p0]; norm_num) (by linarith) z (by rw [mx, p1]; linarith) (by rw [mx]; linarith) (hres fuel le_rfl)
  refine ⟨P, o, fuel, res, hP, ho, g, pos, cl', hres fuel le_rfl, ⟨E, e⟩, fun E h1 h2 hE => ?_⟩
  obtain ⟨n, rfl⟩ := (hP.all E).mp hE
  by_cases n1 : 1 ≤ n
  · have := hP.mono n1
    rw [p1] at this
    linarith
  · obtain rfl : n = 0 := by omega
    rw [p0] at h1
    linarith

end Verif.Periodic
