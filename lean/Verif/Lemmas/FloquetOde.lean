import Verif.Lemmas.Crossing
import Verif.Lemmas.PeriodicNear
import Verif.Lemmas.EigenNorm
import Verif.Props.Oscillation

/-!
# The monodromy matrix of a coupled problem as a function of the energy
-/
namespace Verif.Solver
open Verif Verif.Mesh Verif.YT Verif.Spec Verif.Cross

variable {W : Sec ℝ → ℝ → ℝ} {secs : List (Sec ℝ)} {dmin dmax vlo vhi : ℝ}

theorem BoundedProblem.okAll (h : BoundedProblem W secs dmin dmax vlo vhi) : ∃ M, 1 ≤ M ∧ ∀ F, OkMesh (M + |F|) W F dmin secs dmax := by
  obtain ⟨M, hM, -, ok⟩ := h.ok 0
  refine ⟨M, hM, fun F => ⟨ok.chn, ok.pos, ok.cont, fun s hs x hx => ?_⟩⟩
  have h1 := ok.le s hs x hx
  have h2 := abs_sub (W s x) F
  linarith

theorem BoundedProblem.okOne (h : BoundedProblem W secs dmin dmax vlo vhi) (F : ℝ) : ∃ K, 1 ≤ K ∧ OkMesh K W F dmin secs dmax := by
  obtain ⟨M, hM, k⟩ := h.okAll
  exact ⟨_, by linarith [abs_nonneg F], k F⟩

theorem BoundedProblem.fundamental (h : BoundedProblem W secs dmin dmax vlo vhi) : ∃ c dc s ds, Fundamental W secs dmin c dc s ds := by
  have fam : ∀ u : ℝ × ℝ, ∃ g dg : ℝ → ℝ → ℝ, ∀ F, SolvesMesh W F secs (g F) (dg F) ∧ g F dmin = u.1 ∧ dg F dmin = u.2 := by
    intro u
    have : ∀ F : ℝ, ∃ p : (ℝ → ℝ) × (ℝ → ℝ), SolvesMesh W F secs p.1 p.2 ∧ p.1 dmin = u.1 ∧ p.2 dmin = u.2 := fun F => by
      obtain ⟨K, -, ok⟩ := h.okOne F
      obtain ⟨y, dy, h1, h2, h3⟩ := mesh_exists_at ok (x := dmin) ⟨le_rfl, h.lt.le⟩ u
      exact ⟨(y, dy), h1, h2, h3⟩
    choose p hp using this
    exact ⟨fun F => (p F).1, fun F => (p F).2, hp⟩
  obtain ⟨c, dc, hc⟩ := fam (1, 0)
  obtain ⟨s, ds, hs⟩ := fam (0, 1)
  exact ⟨c, dc, s, ds, fun F => (hc F).1, fun F => (hs F).1, fun F => (hc F).2, fun F => (hs F).2⟩

/-- `(z₁ y₂' - z₁' y₂)' = y₁ y₂` for the energy derivative `z₁` of `y₁`. -/
theorem energy_cross {q : ℝ → ℝ} {a b : ℝ} {y z dz u du : ℝ → ℝ} (hu : SolvesR q a b u du) (cy : ContinuousOn y (Set.Icc a b)) (hz : EnergyR q a b y z dz) (hab : a ≤ b) :
    (z b * du b - dz b * u b) - (z a * du a - dz a * u a) = ∫ t in a..b, y t * u t :=
  (intervalIntegral.integral_eq_sub_of_hasDeriv_right_of_le (f := fun t => z t * du t - dz t * u t) (f' := fun t => y t * u t) hab
    ((hz.c1.mul hu.c2).sub (hz.c2.mul hu.c1))
    (fun t ht => by
      have ht' : t ∈ Set.Ico a b := ⟨ht.1.le, ht.2⟩
      have h := ((hz.d1 t ht').mul (hu.d2 t ht')).sub ((hz.d2 t ht').mul (hu.d1 t ht'))
      exact (h.congr_deriv (by ring)).mono Set.Ioi_subset_Ici_self)
    ((ContinuousOn.intervalIntegrable (by rw [Set.uIcc_of_le hab]; exact cy.mul hu.c1)))).symm

/-- The energy derivatives of the entries of the monodromy matrix. -/
theorem monodromy_deriv (h : BoundedProblem W secs dmin dmax vlo vhi) {c dc s ds : ℝ → ℝ → ℝ} (hF : Fundamental W secs dmin c dc s ds) (E : ℝ) :
    ∃ I1 I2 I3 c' dc' s' ds' : ℝ, HasDerivAt (fun F => c F dmax) c' E ∧ HasDerivAt (fun F => dc F dmax) dc' E ∧ HasDerivAt (fun F => s F dmax) s' E ∧ HasDerivAt (fun F => ds F dmax) ds' E ∧
      c E dmax * ds E dmax - s E dmax * dc E dmax = 1 ∧
      c' = c E dmax * I2 - s E dmax * I1 ∧ dc' = dc E dmax * I2 - ds E dmax * I1 ∧ s' = c E dmax * I3 - s E dmax * I2 ∧ ds' = dc E dmax * I3 - ds E dmax * I2 ∧
      ∀ α β : ℝ, (α ≠ 0 ∨ β ≠ 0) → 0 < α ^ 2 * I1 + 2 * α * β * I2 + β ^ 2 * I3 := by
  have hlt := h.lt
  have aI : dmin ∈ Set.Icc dmin dmax := ⟨le_rfl, hlt.le⟩
  have bI : dmax ∈ Set.Icc dmin dmax := ⟨hlt.le, le_rfl⟩
  obtain ⟨M0, hM0, all⟩ := h.okAll
  obtain ⟨M, hMd⟩ : ∃ M, M = M0 + |E| := ⟨_, rfl⟩
  have hM : 1 ≤ M := by linarith [abs_nonneg E]
  have hE : |E| ≤ M := by linarith
  have ok3 : ∀ F, |F| ≤ M + 1 → OkMesh (3 * M) W F dmin secs dmax := fun F hF =>
    ⟨(all F).chn, (all F).pos, (all F).cont, fun s hs x hx => ((all F).le s hs x hx).trans (by linarith [abs_nonneg E])⟩
  have okE := ok3 E (by linarith)
  obtain ⟨z1, dz1, e1, a1, b1⟩ := mesh_energy_exists_at okE (hF.solC E) aI (0, 0)
  obtain ⟨z2, dz2, e2, a2, b2⟩ := mesh_energy_exists_at okE (hF.solS E) aI (0, 0)
  have d1 := mesh_hasDeriv hM hE ok3 (u := (1, 0)) (fun F _ => ⟨hF.solC F, hF.initC F⟩) e1 aI bI a1 b1
  have d2 := mesh_hasDeriv hM hE ok3 (u := (0, 1)) (fun F _ => ⟨hF.solS F, hF.initS F⟩) e2 aI bI a2 b2
  have rc := (hF.solC E).right okE
  have rs := (hF.solS E).right okE
  have x1 := energyMesh_right okE e1
  have x2 := energyMesh_right okE e2
  have k11 := energy_cross rc rc.c1 x1 hlt.le
  have k12 := energy_cross rs rc.c1 x1 hlt.le
  have k21 := energy_cross rc rs.c1 x2 hlt.le
  have k22 := energy_cross rs rs.c1 x2 hlt.le
  rw [a1, b1] at k11 k12
  rw [a2, b2] at k21 k22
  have w := wronskR rs rc bI
  rw [(hF.initC E).1, (hF.initC E).2, (hF.initS E).1, (hF.initS E).2] at w
  have ii : ∀ {f g : ℝ → ℝ}, ContinuousOn f (Set.Icc dmin dmax) → ContinuousOn g (Set.Icc dmin dmax) → IntervalIntegrable (fun t => f t * g t) MeasureTheory.volume dmin dmax :=
    fun hf hg => ContinuousOn.intervalIntegrable (by rw [Set.uIcc_of_le hlt.le]; exact hf.mul hg)
  have sym : ∫ t in dmin..dmax, s E t * c E t = ∫ t in dmin..dmax, c E t * s E t := by simp_rw [mul_comm]
  rw [sym] at k21
  obtain ⟨I1, hI1⟩ : ∃ I, I = ∫ t in dmin..dmax, c E t * c E t := ⟨_, rfl⟩
  obtain ⟨I2, hI2⟩ : ∃ I, I = ∫ t in dmin..dmax, c E t * s E t := ⟨_, rfl⟩
  obtain ⟨I3, hI3⟩ : ∃ I, I = ∫ t in dmin..dmax, s E t * s E t := ⟨_, rfl⟩
  rw [← hI1] at k11
  rw [← hI2] at k12 k21
  rw [← hI3] at k22
  refine ⟨I1, I2, I3, z1 dmax, dz1 dmax, z2 dmax, dz2 dmax, d1.1, d1.2, d2.1, d2.2, by linarith, ?_, ?_, ?_, ?_, fun α β hne => ?_⟩
  · linear_combination (-z1 dmax) * w + c E dmax * k12 - s E dmax * k11
  · linear_combination (-dz1 dmax) * w + dc E dmax * k12 - ds E dmax * k11
  · linear_combination (-z2 dmax) * w + c E dmax * k22 - s E dmax * k21
  · linear_combination (-dz2 dmax) * w + dc E dmax * k22 - ds E dmax * k21
  · have comb := (hF.solC E).comb (hF.solS E) α β
    have rr := comb.right okE
    have e : α ^ 2 * I1 + 2 * α * β * I2 + β ^ 2 * I3 = ∫ t in dmin..dmax, (α * c E t + β * s E t) ^ 2 := by
      have : ∀ t, (α * c E t + β * s E t) ^ 2 = α ^ 2 * (c E t * c E t) + 2 * α * β * (c E t * s E t) + β ^ 2 * (s E t * s E t) := fun t => by ring
      simp_rw [this]
      rw [intervalIntegral.integral_add (((ii rc.c1 rc.c1).const_mul _).add ((ii rc.c1 rs.c1).const_mul _)) ((ii rs.c1 rs.c1).const_mul _),
        intervalIntegral.integral_add ((ii rc.c1 rc.c1).const_mul _) ((ii rc.c1 rs.c1).const_mul _),
        intervalIntegral.integral_const_mul, intervalIntegral.integral_const_mul, intervalIntegral.integral_const_mul, hI1, hI2, hI3]
    rw [e]
    refine intervalIntegral.integral_pos hlt (rr.c1.pow 2) (fun x _ => sq_nonneg _) ?_
    by_contra hc
    push Not at hc
    have hz : ∀ x ∈ Set.Icc dmin dmax, α * c E x + β * s E x = 0 := fun x hx => pow_eq_zero_iff two_ne_zero |>.mp (le_antisymm (hc x hx) (sq_nonneg _))
    -- the derivative at the left end vanishes too
    have h0 := hz dmin aI
    rw [(hF.initC E).1, (hF.initS E).1] at h0
    have dd := rr.d1 dmin ⟨le_rfl, hlt⟩
    have dz : HasDerivWithinAt (fun x => α * c E x + β * s E x) 0 (Set.Ici dmin) dmin := by
      refine (hasDerivWithinAt_const dmin (Set.Ici dmin) (0 : ℝ)).congr_of_eventuallyEq ?_ (hz dmin aI)
      filter_upwards [Icc_mem_nhdsGE hlt] with x hx using hz x hx
    have := (uniqueDiffWithinAt_Ici dmin).eq_deriv _ dd dz
    rw [(hF.initC E).2, (hF.initS E).2] at this
    rcases hne with q | q
    · exact q (by linarith)
    · exact q (by linarith)

/-- `tr (K⁻¹ Φ)` for `det K = 1`. -/
def trK (k : M2 ℝ) (c dc s ds : ℝ) : ℝ := k.d * c + k.a * ds - k.b * dc - k.c * s

/-- `(Φ u) × (K u)`, zero when the solution that starts with `u` ends in the direction of `K u`. -/
def crossK (k : M2 ℝ) (u : ℝ × ℝ) (c dc s ds : ℝ) : ℝ := (k.a * u.1 + k.b * u.2) * (u.1 * dc + u.2 * ds) - (k.c * u.1 + k.d * u.2) * (u.1 * c + u.2 * s)

/-- Algebra of the derivative of the trace. -/
theorem trace_algebra {p q r w I1 I2 I3 u1 u2 f' f B : ℝ} (det : p * w - q * r = 1) (hf : f = p + w) (hf' : f' = r * I3 + (p - w) * I2 - q * I1) (hB : B = r * u1 ^ 2 + (w - p) * u1 * u2 - q * u2 ^ 2)
    (hI : ∀ α β : ℝ, (α ≠ 0 ∨ β ≠ 0) → 0 < α ^ 2 * I1 + 2 * α * β * I2 + β ^ 2 * I3) :
    (|f| ≤ 2 → B ≠ 0 → 0 < B * f') ∧ (f = 2 → ¬ (p = 1 ∧ q = 0 ∧ r = 0 ∧ w = 1) → f' ≠ 0) := by
  have h3 : 0 < I3 := by have := hI 0 1 (.inr one_ne_zero); linarith
  have disc : (p - w) ^ 2 + 4 * q * r = f ^ 2 - 4 := by rw [hf]; linear_combination -4 * det
  have main : q ≠ 0 → f ^ 2 ≤ 4 → 0 < -4 * q * f' := fun hq h4 => by
    have k := hI (2 * q) (-(p - w)) (.inl (by simpa using hq))
    have e : -4 * q * f' = (2 * q) ^ 2 * I1 + 2 * (2 * q) * (-(p - w)) * I2 + (-(p - w)) ^ 2 * I3 + (4 - f ^ 2) * I3 := by rw [hf']; linear_combination -I3 * disc
    rw [e]
    have : 0 ≤ (4 - f ^ 2) * I3 := mul_nonneg (by linarith) h3.le
    linarith
  constructor
  · intro h2 hB0
    have h4 : f ^ 2 ≤ 4 := by rw [← sq_abs]; nlinarith [abs_nonneg f]
    by_cases hq : q = 0
    · subst hq
      have : (p - w) ^ 2 = 0 := le_antisymm (by linarith) (sq_nonneg _)
      have hpw : p - w = 0 := pow_eq_zero_iff two_ne_zero |>.mp this
      have e1 : B = r * u1 ^ 2 := by rw [hB]; linear_combination (-u1 * u2) * hpw
      have e2 : f' = r * I3 := by rw [hf']; linear_combination I2 * hpw
      have hr : r ≠ 0 := fun h => hB0 (by rw [e1, h]; ring)
      have hu : u1 ≠ 0 := fun h => hB0 (by rw [e1, h]; ring)
      rw [e1, e2, show r * u1 ^ 2 * (r * I3) = (r ^ 2 * u1 ^ 2) * I3 by ring]
      positivity
    · have m := main hq h4
      have e : -4 * q * B = (2 * q * u2 + (p - w) * u1) ^ 2 + (4 - f ^ 2) * u1 ^ 2 := by rw [hB]; linear_combination -u1 ^ 2 * disc
      have n0 : 0 ≤ -4 * q * B := by
        rw [e]
        have := sq_nonneg (2 * q * u2 + (p - w) * u1)
        have := mul_nonneg (sub_nonneg.mpr h4) (sq_nonneg u1)
        linarith
      have n1 : 0 < -4 * q * B := lt_of_le_of_ne n0 (fun h => by
        have := mul_eq_zero.mp h.symm
        rcases this with h | h
        · exact hq (by linarith)
        · exact hB0 h)
      have := mul_pos n1 m
      have q2 : 0 < q ^ 2 := by positivity
      by_contra hc
      push Not at hc
      have := mul_nonneg (mul_nonneg (by norm_num : (0 : ℝ) ≤ 16) q2.le) (neg_nonneg.mpr hc)
      nlinarith
  · intro h2 hn h0
    by_cases hq : q = 0
    · subst hq
      rw [h2] at disc
      have hpw : p - w = 0 := pow_eq_zero_iff two_ne_zero |>.mp (by linarith)
      have e2 : f' = r * I3 := by rw [hf']; linear_combination I2 * hpw
      rw [e2] at h0
      have hr : r = 0 := (mul_eq_zero.mp h0).resolve_right h3.ne'
      exact hn ⟨by linarith, rfl, hr, by linarith⟩
    · have := main hq (by rw [h2]; norm_num)
      rw [h0] at this
      linarith

theorem perDet_eq {k : M2 ℝ} (hk : k.a * k.d - k.b * k.c = 1) {c dc s ds : ℝ} (h : c * ds - s * dc = 1) : perDet k c dc s ds = 2 - trK k c dc s ds := by
  unfold perDet trK
  linear_combination hk + h

theorem double_iff (h : BoundedProblem W secs dmin dmax vlo vhi) {c dc s ds : ℝ → ℝ → ℝ} (hF : Fundamental W secs dmin c dc s ds) (k : M2 ℝ) (E : ℝ) :
    IsDoubleEigenvalue W secs dmin dmax k E ↔ c E dmax = k.a ∧ s E dmax = k.b ∧ dc E dmax = k.c ∧ ds E dmax = k.d := by
  obtain ⟨K, hK, ok⟩ := h.okOne E
  have bI : dmax ∈ Set.Icc dmin dmax := ⟨h.lt.le, le_rfl⟩
  constructor
  · intro q
    have q1 := q _ _ (hF.solC E)
    have q2 := q _ _ (hF.solS E)
    unfold Joined at q1 q2
    rw [(hF.initC E).1, (hF.initC E).2] at q1
    rw [(hF.initS E).1, (hF.initS E).2] at q2
    exact ⟨by linarith [q1.1], by linarith [q2.1], by linarith [q1.2], by linarith [q2.2]⟩
  · rintro ⟨e1, e2, e3, e4⟩ y dy hy
    obtain ⟨k1, k2⟩ := solution_comb hK ok (hF.solC E) (hF.solS E) (hF.initC E) (hF.initS E) hy bI
    refine ⟨?_, ?_⟩
    · rw [k1, e1, e2]; ring
    · rw [k2, e3, e4]; ring

theorem floquet (h : BoundedProblem W secs dmin dmax vlo vhi) {k : M2 ℝ} (hk : k.a * k.d - k.b * k.c = 1) {c dc s ds : ℝ → ℝ → ℝ} (hF : Fundamental W secs dmin c dc s ds) (u : ℝ × ℝ) :
    Floquet (fun E => trK k (c E dmax) (dc E dmax) (s E dmax) (ds E dmax)) (fun E => crossK k u (c E dmax) (dc E dmax) (s E dmax) (ds E dmax))
      (fun E => IsDoubleEigenvalue W secs dmin dmax k E) := by
  have tder : ∀ E c' dc' s' ds', HasDerivAt (fun F => c F dmax) c' E → HasDerivAt (fun F => dc F dmax) dc' E → HasDerivAt (fun F => s F dmax) s' E → HasDerivAt (fun F => ds F dmax) ds' E →
      HasDerivAt (fun E => trK k (c E dmax) (dc E dmax) (s E dmax) (ds E dmax)) (k.d * c' + k.a * ds' - k.b * dc' - k.c * s') E := fun E c' dc' s' ds' h1 h2 h3 h4 =>
    (((h1.const_mul k.d).add (h4.const_mul k.a)).sub (h2.const_mul k.b)).sub (h3.const_mul k.c)
  have alg : ∀ E, ∃ d, HasDerivAt (fun E => trK k (c E dmax) (dc E dmax) (s E dmax) (ds E dmax)) d E ∧
      (|trK k (c E dmax) (dc E dmax) (s E dmax) (ds E dmax)| ≤ 2 → crossK k u (c E dmax) (dc E dmax) (s E dmax) (ds E dmax) ≠ 0 → 0 < crossK k u (c E dmax) (dc E dmax) (s E dmax) (ds E dmax) * d) ∧
      (trK k (c E dmax) (dc E dmax) (s E dmax) (ds E dmax) = 2 → ¬ IsDoubleEigenvalue W secs dmin dmax k E → d ≠ 0) := by
    intro E
    obtain ⟨I1, I2, I3, c', dc', s', ds', h1, h2, h3, h4, det, q1, q2, q3, q4, gram⟩ := monodromy_deriv h hF E
    refine ⟨_, tder E _ _ _ _ h1 h2 h3 h4, ?_⟩
    rw [double_iff h hF]
    obtain ⟨x, hx⟩ : ∃ x, x = c E dmax := ⟨_, rfl⟩
    obtain ⟨y, hy⟩ : ∃ x, x = dc E dmax := ⟨_, rfl⟩
    obtain ⟨z, hz⟩ : ∃ x, x = s E dmax := ⟨_, rfl⟩
    obtain ⟨t, ht⟩ : ∃ x, x = ds E dmax := ⟨_, rfl⟩
    rw [← hx, ← hz] at q1 q3
    rw [← hy, ← ht] at q2 q4
    rw [← hx, ← hy, ← hz, ← ht] at det ⊢
    have A := trace_algebra (p := k.d * x - k.b * y) (q := k.d * z - k.b * t) (r := -k.c * x + k.a * y) (w := -k.c * z + k.a * t) (I1 := I1) (I2 := I2) (I3 := I3) (u1 := u.1) (u2 := u.2)
      (f' := k.d * c' + k.a * ds' - k.b * dc' - k.c * s') (f := trK k x y z t) (B := crossK k u x y z t) (by linear_combination det + (x * t - z * y) * hk) (by unfold trK; ring)
      (by rw [q1, q2, q3, q4]; ring) (by unfold crossK; ring) gram
    refine ⟨A.1, fun e nd => A.2 e (fun ⟨g1, g2, g3, g4⟩ => nd ⟨?_, ?_, ?_, ?_⟩)⟩
    · linear_combination k.a * g1 + k.b * g3 - x * hk
    · linear_combination k.a * g2 + k.b * g4 - z * hk
    · linear_combination k.c * g1 + k.d * g3 - y * hk
    · linear_combination k.c * g2 + k.d * g4 - t * hk
  refine ⟨fun E => (alg E).elim fun d hd => ⟨d, hd.1⟩, continuous_iff_continuousAt.mpr fun E => ?_, fun E d hd h1 h2 => ?_, fun E e nd => ?_, fun E hD => ⟨?_, ?_⟩, fun E hD => ?_⟩
  · obtain ⟨I1, I2, I3, c', dc', s', ds', h1, h2, h3, h4, -⟩ := monodromy_deriv h hF E
    have := h1.continuousAt
    have := h2.continuousAt
    have := h3.continuousAt
    have := h4.continuousAt
    unfold crossK
    fun_prop
  · obtain ⟨d', h3, h4, -⟩ := alg E
    rw [hd.unique h3]
    exact h4 h1 h2
  · obtain ⟨d', h3, -, h4⟩ := alg E
    exact ⟨d', h4 e nd, h3⟩
  · obtain ⟨e1, e2, e3, e4⟩ := (double_iff h hF k E).mp hD
    unfold trK
    rw [e1, e2, e3, e4]
    linear_combination 2 * hk
  · obtain ⟨e1, e2, e3, e4⟩ := (double_iff h hF k E).mp hD
    obtain ⟨I1, I2, I3, c', dc', s', ds', h1, h2, h3, h4, det, q1, q2, q3, q4, gram⟩ := monodromy_deriv h hF E
    have t1 := hasDerivAt_iff_tendsto_slope.mp h1
    have t2 := hasDerivAt_iff_tendsto_slope.mp h2
    have t3 := hasDerivAt_iff_tendsto_slope.mp h3
    have t4 := hasDerivAt_iff_tendsto_slope.mp h4
    have pos : 0 < c' * ds' - s' * dc' := by
      have e : c' * ds' - s' * dc' = I1 * I3 - I2 ^ 2 := by rw [q1, q2, q3, q4]; linear_combination (I1 * I3 - I2 ^ 2) * det
      have g1 := gram 1 0 (.inl one_ne_zero)
      have g2 := gram (-I2) I1 (.inr (by intro h; rw [h] at g1; simp at g1))
      have p1 : 0 < I1 := by linarith
      rw [e]
      have : (-I2) ^ 2 * I1 + 2 * -I2 * I1 * I2 + I1 ^ 2 * I3 = I1 * (I1 * I3 - I2 ^ 2) := by ring
      rw [this] at g2
      exact pos_of_mul_pos_right g2 p1.le
    have t := ((t1.mul t4).sub (t3.mul t2)).eventually (lt_mem_nhds pos)
    rw [eventually_nhdsWithin_iff, Metric.eventually_nhds_iff] at t
    obtain ⟨ε, hε, key⟩ := t
    refine ⟨ε, hε, fun w hw hwε => ?_⟩
    have q := key (y := w) (by rwa [Real.dist_eq]) hw
    simp only [slope_def_field] at q
    rw [e1, e2, e3, e4] at q
    have hw' : w - E ≠ 0 := sub_ne_zero.mpr hw
    have e : ((c w dmax - k.a) / (w - E) * ((ds w dmax - k.d) / (w - E)) - (s w dmax - k.b) / (w - E) * ((dc w dmax - k.c) / (w - E))) =
        perDet k (c w dmax) (dc w dmax) (s w dmax) (ds w dmax) / (w - E) ^ 2 := by unfold perDet; field_simp
    rw [e] at q
    have q' := (div_pos_iff_of_pos_right (by positivity)).mp q
    obtain ⟨-, -, -, -, -, -, -, -, -, -, -, detw, -⟩ := monodromy_deriv h hF w
    rw [perDet_eq hk detw] at q'
    show trK k (c w dmax) (dc w dmax) (s w dmax) (ds w dmax) < 2
    linarith
  · obtain ⟨e1, e2, e3, e4⟩ := (double_iff h hF k E).mp hD
    show crossK k u _ _ _ _ = 0
    unfold crossK
    rw [e1, e2, e3, e4]; ring

end Verif.Solver
