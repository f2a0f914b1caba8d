import Verif.Lemmas.FloquetOde
import Verif.Spec.PeriodicNumbers

/-!
# The trace at the eigenvalues of a separated problem
-/
namespace Verif.Solver
open Verif Verif.Mesh Verif.YT Verif.Spec Verif.Cross Verif.Prufer
open Real (pi)

variable {W : Sec ℝ → ℝ → ℝ} {secs : List (Sec ℝ)} {dmin dmax vlo vhi : ℝ}

theorem img_ne {k : M2 ℝ} (hk : k.a * k.d - k.b * k.c = 1) {u : ℝ × ℝ} (hu : u.1 ≠ 0 ∨ u.2 ≠ 0) : (img k u).1 ≠ 0 ∨ (img k u).2 ≠ 0 := by
  by_contra h
  push Not at h
  obtain ⟨h1, h2⟩ := h
  simp only [img] at h1 h2
  rcases hu with q | q
  · exact q (by linear_combination k.d * h1 - k.b * h2 - u.1 * hk)
  · exact q (by linear_combination k.a * h2 - k.c * h1 - u.2 * hk)

/-- An eigenvalue of the separated problem is a zero of the cross product. -/
theorem cross_of_eigen (h : BoundedProblem W secs dmin dmax vlo vhi) {k : M2 ℝ} {c dc s ds : ℝ → ℝ → ℝ} (hF : Fundamental W secs dmin c dc s ds) {u : ℝ × ℝ}
    (hu : u.1 ≠ 0 ∨ u.2 ≠ 0) (E : ℝ) : crossK k u (c E dmax) (dc E dmax) (s E dmax) (ds E dmax) = 0 ↔ IsEigenvalue W secs dmin dmax u (img k u) E := by
  obtain ⟨K, hK, ok⟩ := h.okOne E
  have aI : dmin ∈ Set.Icc dmin dmax := ⟨le_rfl, h.lt.le⟩
  have bI : dmax ∈ Set.Icc dmin dmax := ⟨h.lt.le, le_rfl⟩
  have w := wronskR ((hF.solS E).right ok) ((hF.solC E).right ok) bI
  rw [(hF.initC E).1, (hF.initC E).2, (hF.initS E).1, (hF.initS E).2] at w
  constructor
  · intro h0
    have q := (hF.solC E).comb (hF.solS E) u.1 u.2
    refine ⟨_, _, q, ?_, ?_, ?_⟩
    · by_contra hz
      push Not at hz
      obtain ⟨-, -, I3, -, -, -, -, -, -, -, -, -⟩ := monodromy_deriv h hF E
      have e0 := hz dmin aI
      have eb := hz dmax bI
      have rr := q.right ok
      have dd := rr.d1 dmin ⟨le_rfl, h.lt⟩
      have dz : HasDerivWithinAt (fun x => u.1 * c E x + u.2 * s E x) 0 (Set.Ici dmin) dmin := by
        refine (hasDerivWithinAt_const dmin (Set.Ici dmin) (0 : ℝ)).congr_of_eventuallyEq ?_ (hz dmin aI)
        filter_upwards [Icc_mem_nhdsGE h.lt] with x hx using hz x hx
      have := (uniqueDiffWithinAt_Ici dmin).eq_deriv _ dd dz
      rw [(hF.initC E).2, (hF.initS E).2] at this
      rw [(hF.initC E).1, (hF.initS E).1] at e0
      rcases hu with h | h
      · exact h (by linarith)
      · exact h (by linarith)
    · show (u.1 * c E dmin + u.2 * s E dmin) * u.2 = (u.1 * dc E dmin + u.2 * ds E dmin) * u.1
      rw [(hF.initC E).1, (hF.initC E).2, (hF.initS E).1, (hF.initS E).2]; ring
    · show (u.1 * c E dmax + u.2 * s E dmax) * (k.c * u.1 + k.d * u.2) = (u.1 * dc E dmax + u.2 * ds E dmax) * (k.a * u.1 + k.b * u.2)
      unfold crossK at h0
      linear_combination -h0
  · rintro ⟨y, dy, hy, ⟨x, hx, hne⟩, hl, hr⟩
    obtain ⟨q1, q2⟩ := solution_comb hK ok (hF.solC E) (hF.solS E) (hF.initC E) (hF.initS E) hy bI
    have hy0 : ¬ (y dmin = 0 ∧ dy dmin = 0) := fun ⟨e1, e2⟩ => hne (mesh_zero hK ok hy aI (by rw [e1, e2]; simp [sz]) hx).1
    obtain ⟨α, hα, a1, a2⟩ : ∃ α, α ≠ 0 ∧ y dmin = α * u.1 ∧ dy dmin = α * u.2 := by
      by_cases h1 : u.1 = 0
      · have h2 := hu.resolve_left (fun q => q h1)
        rw [h1, mul_zero] at hl
        have e0 : y dmin = 0 := (mul_eq_zero.mp hl).resolve_right h2
        exact ⟨dy dmin / u.2, div_ne_zero (fun q => hy0 ⟨e0, q⟩) h2, by rw [h1, e0, mul_zero], by field_simp⟩
      · have e2 : dy dmin = y dmin / u.1 * u.2 := by field_simp; linarith
        refine ⟨y dmin / u.1, div_ne_zero (fun q => hy0 ⟨q, ?_⟩) h1, by field_simp, e2⟩
        rw [e2, q]; ring
    have : α * crossK k u (c E dmax) (dc E dmax) (s E dmax) (ds E dmax) = 0 := by
      simp only [img] at hr
      rw [q1, q2, a1, a2] at hr
      unfold crossK
      linear_combination -hr
    exact (mul_eq_zero.mp this).resolve_left hα

theorem nr_eigen {L R : ℝ × ℝ} {n : ℕ} {E : ℝ} (h : IsEigenvalueNr W secs dmin dmax L R n E) : IsEigenvalue W secs dmin dmax L R E := by
  obtain ⟨y, dy, h1, h2, h3, h4, -, -⟩ := h
  exact ⟨y, dy, h1, h2, h3, h4⟩

/-- **Sign of the eigenfunction.** The solution through `u` ends at `m K u` with the sign of `m` given by the number of zeros. -/
theorem trace_at_eigen (h : BoundedProblem W secs dmin dmax vlo vhi) {k : M2 ℝ} (hk : k.a * k.d - k.b * k.c = 1) {c dc s ds : ℝ → ℝ → ℝ} (hF : Fundamental W secs dmin c dc s ds) {u : ℝ × ℝ}
    (hu : u.1 ≠ 0 ∨ u.2 ≠ 0) {n : ℕ} {E : ℝ} (hE : IsEigenvalueNr W secs dmin dmax u (img k u) n E) :
    ∃ m : ℝ, u.1 * c E dmax + u.2 * s E dmax = m * (img k u).1 ∧ u.1 * dc E dmax + u.2 * ds E dmax = m * (img k u).2 ∧
      0 < m * ((-1) ^ n * (sgnL u * sgnR (img k u))) ∧ m * trK k (c E dmax) (dc E dmax) (s E dmax) (ds E dmax) = m ^ 2 + 1 := by
  have h0 := (cross_of_eigen h hF hu E).mpr (nr_eigen hE)
  have hR := img_ne hk hu
  have hlt := h.lt
  have aI : dmin ∈ Set.Icc dmin dmax := ⟨le_rfl, hlt.le⟩
  have bI : dmax ∈ Set.Icc dmin dmax := ⟨hlt.le, le_rfl⟩
  obtain ⟨M, hM, hME, ok⟩ := h.ok |E|
  obtain ⟨C, hC, key⟩ := exact_count M hM
  have pos : ∀ Y : ℝ × ℝ, (Y.1 ≠ 0 ∨ Y.2 ≠ 0) → 0 < sz Y := fun Y h => sz_pos_iff.mpr (fun h' => h.elim (fun q => q h'.1) (fun q => q h'.2))
  obtain ⟨D, y, dy, z, dz, hD⟩ := key W dmin dmax secs u (img k u) ok (pos _ hu) (pos _ hR)
  obtain ⟨ys, ya, dya⟩ := hD.ysol E hME
  obtain ⟨zs, zb, dzb⟩ := hD.zsol E hME
  obtain ⟨Θl, Θr, cl, cr, nl, nr, rel⟩ := hD.angles E hME 1 le_rfl (by linarith)
  have hDn := (hD.index E hME n).mpr ⟨n, rfl, hE⟩
  obtain ⟨K, hK, okE⟩ := h.okOne E
  obtain ⟨y1, y2⟩ := solution_comb hK okE (hF.solC E) (hF.solS E) (hF.initC E) (hF.initS E) ys bI
  rw [ya, dya] at y1 y2
  have w := wronskR ((hF.solS E).right okE) ((hF.solC E).right okE) bI
  rw [(hF.initC E).1, (hF.initC E).2, (hF.initS E).1, (hF.initS E).2] at w
  have nz : ∀ x ∈ Set.Icc dmin dmax, ¬ (y E x = 0 ∧ dy E x = 0) := fun x hx ⟨e1, e2⟩ => by
    have := mesh_zero hK okE ys hx (by rw [e1, e2]; simp [sz]) aI
    rw [ya, dya] at this
    exact hu.elim (fun q => q this.1) (fun q => q this.2)
  -- the multiple
  obtain ⟨m, hm1, hm2⟩ : ∃ m : ℝ, y E dmax = m * (img k u).1 ∧ dy E dmax = m * (img k u).2 := by
    have hx : (img k u).1 * dy E dmax = (img k u).2 * y E dmax := by
      unfold crossK at h0
      rw [y1, y2]
      simp only [img]
      linear_combination h0
    by_cases h1 : (img k u).1 = 0
    · have h2 := hR.resolve_left (fun q => q h1)
      rw [h1, zero_mul] at hx
      exact ⟨dy E dmax / (img k u).2, by rw [h1, mul_zero]; exact (mul_eq_zero.mp hx.symm).resolve_left h2, by field_simp⟩
    · exact ⟨y E dmax / (img k u).1, by field_simp, by field_simp; linarith⟩
  -- radius
  have cy : ContinuousOn (y E) (Set.Icc dmin dmax) := (ys.right okE).c1
  have cdy : ContinuousOn (dy E) (Set.Icc dmin dmax) := (ys.right okE).c2
  have polar : ∀ x ∈ Set.Icc dmin dmax, y E x = (dy E x * Real.cos (Θl x) + y E x * Real.sin (Θl x)) * Real.sin (Θl x) ∧
      dy E x = (dy E x * Real.cos (Θl x) + y E x * Real.sin (Θl x)) * Real.cos (Θl x) := fun x hx => by
    have := cl.angle x hx
    unfold IsAngle at this
    have e := Real.sin_sq_add_cos_sq (Θl x)
    constructor
    · linear_combination (-y E x) * e + Real.cos (Θl x) * this
    · linear_combination (-dy E x) * e - Real.sin (Θl x) * this
  have rne : ∀ x ∈ Set.Icc dmin dmax, dy E x * Real.cos (Θl x) + y E x * Real.sin (Θl x) ≠ 0 := fun x hx e => by
    have := polar x hx
    rw [e, zero_mul, zero_mul] at this
    exact nz x hx this
  have cΘ := cl.cont
  have cr' : ContinuousOn (fun x => dy E x * Real.cos (Θl x) + y E x * Real.sin (Θl x)) (Set.Icc dmin dmax) :=
    (cdy.mul (Real.continuous_cos.comp_continuousOn cΘ)).add (cy.mul (Real.continuous_sin.comp_continuousOn cΘ))
  have same : 0 < (dy E dmin * Real.cos (Θl dmin) + y E dmin * Real.sin (Θl dmin)) * (dy E dmax * Real.cos (Θl dmax) + y E dmax * Real.sin (Θl dmax)) := by
    by_contra hc
    push Not at hc
    obtain ⟨x, hx, e⟩ : ∃ x ∈ Set.Icc dmin dmax, dy E x * Real.cos (Θl x) + y E x * Real.sin (Θl x) = 0 := by
      rcases le_total (dy E dmin * Real.cos (Θl dmin) + y E dmin * Real.sin (Θl dmin)) 0 with q | q
      · have q2 : 0 ≤ dy E dmax * Real.cos (Θl dmax) + y E dmax * Real.sin (Θl dmax) := by
          by_contra h'
          push Not at h'
          have := mul_pos_of_neg_of_neg (lt_of_le_of_ne q (rne _ aI)) h'
          linarith
        exact (isPreconnected_Icc.intermediate_value aI bI cr') ⟨q, q2⟩
      · have q2 : dy E dmax * Real.cos (Θl dmax) + y E dmax * Real.sin (Θl dmax) ≤ 0 := by
          by_contra h'
          push Not at h'
          have := mul_pos (lt_of_le_of_ne q (rne _ aI).symm) h'
          linarith
        exact (isPreconnected_Icc.intermediate_value bI aI cr') ⟨q2, q⟩
    exact rne x hx e
  have pa := polar dmin aI
  have pb := polar dmax bI
  have ra := rne dmin aI
  have rb := rne dmax bI
  obtain ⟨r0, hr0⟩ : ∃ r, r = dy E dmin * Real.cos (Θl dmin) + y E dmin * Real.sin (Θl dmin) := ⟨_, rfl⟩
  obtain ⟨r1, hr1⟩ : ∃ r, r = dy E dmax * Real.cos (Θl dmax) + y E dmax * Real.sin (Θl dmax) := ⟨_, rfl⟩
  rw [← hr0, ← hr1] at same
  rw [← hr0] at pa ra
  rw [← hr1] at pb rb
  -- the angles at the right end
  have hΘ : Θl dmax = Θr dmax + n * pi := by
    have a1 := cl.angle dmax bI
    have a2 := cr.angle dmax bI
    rw [zb, dzb] at a2
    have a3 : IsAngle (Θr dmax) (1 * y E dmax) (dy E dmax) := by
      unfold IsAngle at *
      rw [hm1, hm2]
      linear_combination m * a2
    obtain ⟨j, hj⟩ := a3.unique a1 (fun e => nz _ bI ⟨by linarith [e.1], e.2⟩)
    have r1 := (rel dmax bI).1 (n + 1)
    have r2 := (rel dmax bI).1 (n - 1)
    rw [hDn] at r1 r2
    push_cast at r1 r2
    have pp := Real.pi_pos
    have s1 := r1.1 (by linarith)
    have s2 := r2.2 (by linarith)
    rw [hj] at s1 s2
    have t1 : ((j : ℤ) : ℝ) * pi < ((n + 1 : ℤ) : ℝ) * pi := by push_cast; linarith
    have t2 : ((n - 1 : ℤ) : ℝ) * pi < ((j : ℤ) : ℝ) * pi := by push_cast; linarith
    have u1 : j < n + 1 := by exact_mod_cast lt_of_mul_lt_mul_right t1 pp.le
    have u2 : (n : ℤ) - 1 < j := by exact_mod_cast lt_of_mul_lt_mul_right t2 pp.le
    have : j = n := by omega
    rw [hj, this]; push_cast; ring
  rw [hΘ, Real.sin_add_nat_mul_pi, Real.cos_add_nat_mul_pi] at pb
  have sq1 : ((-1 : ℝ) ^ n) * (-1) ^ n = 1 := by rw [← mul_pow]; norm_num
  have sL : 0 < r0 * sgnL u := by
    rw [ya, dya] at pa
    have s0 := Real.sin_nonneg_of_nonneg_of_le_pi nl.1 nl.2.le
    unfold sgnL
    split
    · rename_i e
      rw [e] at pa
      have sz : Real.sin (Θl dmin) = 0 := (mul_eq_zero.mp pa.1.symm).resolve_left ra
      have : Θl dmin = 0 := by
        by_contra hne
        have := Real.sin_pos_of_pos_of_lt_pi (lt_of_le_of_ne nl.1 (Ne.symm hne)) nl.2
        linarith
      rw [this, Real.cos_zero, mul_one] at pa
      rw [pa.2]
      exact lt_of_le_of_ne (mul_self_nonneg _) (mul_ne_zero ra ra).symm
    · rename_i e
      have : 0 ≤ r0 * u.1 := by rw [pa.1, ← mul_assoc]; exact mul_nonneg (mul_self_nonneg _) s0
      exact lt_of_le_of_ne this (mul_ne_zero ra e).symm
  have sR : 0 < r1 * ((-1) ^ n * (m * sgnR (img k u))) := by
    rw [hm1, hm2] at pb
    have s0 := Real.sin_nonneg_of_nonneg_of_le_pi nr.1.le nr.2
    have mne : m ≠ 0 := fun e => nz _ bI ⟨by rw [hm1, e, zero_mul], by rw [hm2, e, zero_mul]⟩
    have pne : ((-1 : ℝ) ^ n) ≠ 0 := by positivity
    unfold sgnR
    split
    · rename_i e
      rw [e, mul_zero] at pb
      have sz : Real.sin (Θr dmax) = 0 := by
        have := (mul_eq_zero.mp pb.1.symm).resolve_left rb
        exact (mul_eq_zero.mp this).resolve_left pne
      have : Θr dmax = pi := by
        by_contra hne
        have := Real.sin_pos_of_pos_of_lt_pi nr.1 (lt_of_le_of_ne nr.2 hne)
        linarith
      rw [this, Real.cos_pi] at pb
      have : r1 * ((-1) ^ n * (m * -(img k u).2)) = r1 ^ 2 := by
        linear_combination (-r1 * (-1) ^ n) * pb.2 + r1 ^ 2 * sq1
      rw [this]; exact lt_of_le_of_ne (sq_nonneg _) (pow_ne_zero 2 rb).symm
    · rename_i e
      have : r1 * ((-1) ^ n * (m * (img k u).1)) = r1 ^ 2 * Real.sin (Θr dmax) := by
        linear_combination (r1 * (-1) ^ n) * pb.1 + r1 ^ 2 * Real.sin (Θr dmax) * sq1
      have h1 : 0 ≤ r1 * ((-1) ^ n * (m * (img k u).1)) := by rw [this]; exact mul_nonneg (sq_nonneg _) s0
      exact lt_of_le_of_ne h1 (mul_ne_zero rb (mul_ne_zero pne (mul_ne_zero mne e))).symm
  refine ⟨m, by rw [← y1]; exact hm1, by rw [← y2]; exact hm2, ?_, ?_⟩
  · have := mul_pos sL sR
    have e : r0 * sgnL u * (r1 * ((-1) ^ n * (m * sgnR (img k u)))) = (r0 * r1) * (m * ((-1) ^ n * (sgnL u * sgnR (img k u)))) := by ring
    rw [e] at this
    exact pos_of_mul_pos_right this same.le
  · rw [y1] at hm1
    rw [y2] at hm2
    simp only [img] at hm1 hm2
    have w1 : c E dmax * ds E dmax - s E dmax * dc E dmax = 1 := by linarith
    have e1 : (c E dmax - m * k.a) * u.1 + (s E dmax - m * k.b) * u.2 = 0 := by linear_combination hm1
    have e2 : (dc E dmax - m * k.c) * u.1 + (ds E dmax - m * k.d) * u.2 = 0 := by linear_combination hm2
    have dt : (c E dmax - m * k.a) * (ds E dmax - m * k.d) - (s E dmax - m * k.b) * (dc E dmax - m * k.c) = 0 := by
      rcases hu with q | q
      · refine (mul_eq_zero.mp (?_ : u.1 * _ = 0)).resolve_left q
        linear_combination (ds E dmax - m * k.d) * e1 - (s E dmax - m * k.b) * e2
      · refine (mul_eq_zero.mp (?_ : u.2 * _ = 0)).resolve_left q
        linear_combination (c E dmax - m * k.a) * e2 - (dc E dmax - m * k.c) * e1
    unfold trK
    linear_combination -dt + w1 + m ^ 2 * hk

theorem trace_sign {m t x : ℝ} (h : 0 < m * x) (e : m * t = m ^ 2 + 1) : (0 < x → 2 ≤ t) ∧ (x < 0 → t ≤ -2) := by
  have hm : m ≠ 0 := by rintro rfl; simp at h
  refine ⟨fun hx => ?_, fun hx => ?_⟩
  · have m0 : 0 < m := pos_of_mul_pos_left h hx.le
    have : 0 ≤ m * (t - 2) := by nlinarith [sq_nonneg (m - 1)]
    have := nonneg_of_mul_nonneg_right this m0
    linarith
  · have m0 : m < 0 := by
      by_contra hc
      push Not at hc
      have := mul_nonpos_of_nonneg_of_nonpos hc hx.le
      linarith
    have : 0 ≤ (-m) * (-2 - t) := by nlinarith [sq_nonneg (m + 1)]
    have := nonneg_of_mul_nonneg_right this (neg_pos.mpr m0)
    linarith

end Verif.Solver
