import Verif.Lemmas.Sensitivity

/-!
# The exact mismatch changes sign near each of its small values
-/
namespace Verif
open Verif.Mesh Verif.Spec

/-- A mesh of an interval of length between `1/M` and `M` with a piecewise continuous potential bounded by `M`. -/
structure Ok (M : ℝ) (W : Sec ℝ → ℝ → ℝ) (a : ℝ) (l : List (Sec ℝ)) (b : ℝ) : Prop where
  chn : Chn a l b
  pos : ∀ s ∈ l, s.min < s.max
  cont : ∀ s ∈ l, ContinuousOn (W s) (Set.Icc s.min s.max)
  le : ∀ s ∈ l, ∀ x ∈ Set.Icc s.min s.max, |W s x| ≤ M
  short : b - a ≤ M
  long : 1 / M ≤ b - a

theorem Ok.okMesh {M : ℝ} (hM : 1 ≤ M) {W : Sec ℝ → ℝ → ℝ} {a b E : ℝ} {l : List (Sec ℝ)} (h : Ok M W a l b) (hE : |E| ≤ M + 1) : OkMesh (3 * M) W E a l b :=
  ⟨h.chn, h.pos, h.cont, fun s hs x hx => by
    have h1 := h.le s hs x hx
    have h2 := abs_sub (W s x) E
    linarith⟩

/-- growth factor -/
noncomputable def G (M : ℝ) : ℝ := Real.exp (3 * M * M)
/-- length used in `norm_lower` -/
noncomputable def ell (M : ℝ) : ℝ := 1 / (21 * M * G M)

theorem one_le_G {M : ℝ} (hM : 1 ≤ M) : 1 ≤ G M := Real.one_le_exp (by positivity)

theorem Ok.growth {M : ℝ} (hM : 1 ≤ M) {W : Sec ℝ → ℝ → ℝ} {a b E : ℝ} {l : List (Sec ℝ)} (h : Ok M W a l b) (hE : |E| ≤ M + 1)
    {y dy : ℝ → ℝ} (hy : SolvesMesh W E l y dy) {x : ℝ} (hx : x ∈ Set.Icc a b) :
    sz (y x, dy x) ≤ G M * sz (y a, dy a) ∧ sz (y a, dy a) ≤ G M * sz (y x, dy x) := by
  have := mesh_growth (by linarith) (h.okMesh hM hE) hy x hx
  have e : Real.exp (3 * M * (x - a)) ≤ G M := Real.exp_le_exp.mpr (mul_le_mul_of_nonneg_left (by linarith [hx.2, h.short]) (by linarith))
  exact ⟨this.1.trans (mul_le_mul_of_nonneg_right e (sz_nonneg _)), this.2.trans (mul_le_mul_of_nonneg_right e (sz_nonneg _))⟩

theorem ell_facts {M : ℝ} (hM : 1 ≤ M) : 0 < ell M ∧ ell M ≤ 1 / M ∧ ell M ≤ 1 ∧ 3 * M * G M * ell M = 1 / 7 := by
  have hG := one_le_G hM
  have hM0 : 0 < M := by linarith
  have hG0 : 0 < G M := by linarith
  have h1 : ell M ≤ 1 / M := by
    unfold ell
    apply one_div_le_one_div_of_le hM0
    nlinarith
  refine ⟨by unfold ell; positivity, h1, h1.trans ?_, ?_⟩
  · rw [div_le_one hM0]; exact hM
  · unfold ell; field_simp; norm_num

/-- The integral in Green's identity. -/
theorem Ok.overlap {M : ℝ} (hM : 1 ≤ M) {W : Sec ℝ → ℝ → ℝ} {a b E E0 : ℝ} {l : List (Sec ℝ)} (h : Ok M W a l b) (hE : |E| ≤ M + 1) (hE0 : |E0| ≤ M + 1)
    {y dy z dz : ℝ → ℝ} (hy : SolvesMesh W E l y dy) (hz : SolvesMesh W E0 l z dz) (i1 : y a = z a) (i2 : dy a = dz a)
    (hd : |E - E0| * (2 * M ^ 2 * G M ^ 3) ≤ ell M ^ 3 / 48) :
    ell M ^ 3 / 96 * sz (z a, dz a) ^ 2 ≤ ∫ t in a..b, y t * z t := by
  obtain ⟨l0, lM, l1, l7⟩ := ell_facts hM
  have hG := one_le_G hM
  have ry := hy.right (h.okMesh hM hE)
  have rz := hz.right (h.okMesh hM hE0)
  set s := sz (z a, dz a) with hs
  have s0 : 0 ≤ s := sz_nonneg _
  have hab : a ≤ b := (chn_range h.chn h.pos).1
  have bz : ∀ x ∈ Set.Icc a b, |z x| ≤ G M * s := fun x hx => (le_sz1 (z x, dz x)).trans (h.growth hM hE0 hz hx).1
  have sub : ∀ t ∈ Set.Ico a b, t ∈ Set.Icc a b := fun t ht => ⟨ht.1, ht.2.le⟩
  have nl := norm_lower rz (K := 3 * M) (B := G M * s) (ℓ := ell M) (by linarith) (by positivity) (glue_bound (h.okMesh hM hE0))
    (fun x hx => bz x (sub x hx)) l0 l1 (by linarith [h.long]) (by
      rw [← hs]
      have : 3 * M * (G M * s) * ell M = 1 / 7 * s := by rw [← l7]; ring
      rw [this]
      nlinarith [sq_nonneg s])
  rw [← hs] at nl
  have dep : ∀ x ∈ Set.Icc a b, |y x - z x| ≤ |E - E0| * (M * G M ^ 2) * s := by
    intro x hx
    have := energy_dep (w := glue W l) (E := E) (F := E0) (K := 3 * M) (B := G M * s) (by linarith) (by positivity) (glue_bound (h.okMesh hM hE)) ry rz
      i1.symm i2.symm (fun x hx => bz x (sub x hx)) hx
    have e : Real.exp (3 * M * (x - a)) ≤ G M := Real.exp_le_exp.mpr (mul_le_mul_of_nonneg_left (by linarith [hx.2, h.short]) (by linarith))
    have t1 := (le_sz1 ((z x, dz x) - (y x, dy x))).trans this
    simp only [Prod.fst_sub] at t1
    rw [abs_sub_comm] at t1
    refine t1.trans ?_
    rw [abs_sub_comm]
    have xa : x - a ≤ M := by linarith [hx.2, h.short]
    have xa0 : 0 ≤ x - a := by linarith [hx.1]
    calc |E - E0| * (G M * s) * (x - a) * Real.exp (3 * M * (x - a)) ≤ |E - E0| * (G M * s) * M * G M := by
          apply mul_le_mul (mul_le_mul_of_nonneg_left xa (by positivity)) e (Real.exp_pos _).le (by positivity)
      _ = |E - E0| * (M * G M ^ 2) * s := by ring
  have c1 := ry.c1
  have c2 := rz.c1
  have czz : ContinuousOn (fun t => z t * z t) (Set.Icc a b) := c2.mul c2
  have cyz : ContinuousOn (fun t => y t * z t) (Set.Icc a b) := c1.mul c2
  have cc : ContinuousOn (fun t => z t * z t - |E - E0| * (M * G M ^ 3) * s ^ 2) (Set.Icc a b) := czz.sub continuousOn_const
  have ii : ∀ {f : ℝ → ℝ}, ContinuousOn f (Set.Icc a b) → IntervalIntegrable f MeasureTheory.volume a b := fun hf =>
    ContinuousOn.intervalIntegrable (by rw [Set.uIcc_of_le hab]; exact hf)
  have m : (∫ t in a..b, (z t * z t - |E - E0| * (M * G M ^ 3) * s ^ 2)) ≤ ∫ t in a..b, y t * z t := by
    apply intervalIntegral.integral_mono_on hab (ii cc) (ii cyz)
    intro x hx
    have h1 := dep x hx
    have h2 := bz x hx
    have h3 : |(y x - z x) * z x| ≤ |E - E0| * (M * G M ^ 2) * s * (G M * s) := by
      rw [abs_mul]
      exact mul_le_mul h1 h2 (abs_nonneg _) (by positivity)
    have h4 := neg_abs_le ((y x - z x) * z x)
    have h5 : |E - E0| * (M * G M ^ 2) * s * (G M * s) = |E - E0| * (M * G M ^ 3) * s ^ 2 := by ring
    have h6 : (y x - z x) * z x = y x * z x - z x * z x := by ring
    rw [h5] at h3
    rw [h6] at h3 h4
    linarith
  rw [intervalIntegral.integral_sub (ii czz) (ii continuousOn_const), intervalIntegral.integral_const] at m
  rw [smul_eq_mul] at m
  have k1 : (b - a) * (|E - E0| * (M * G M ^ 3) * s ^ 2) ≤ M * (|E - E0| * (M * G M ^ 3) * s ^ 2) := mul_le_mul_of_nonneg_right h.short (by positivity)
  have k2 : |E - E0| * (2 * M ^ 2 * G M ^ 3) * s ^ 2 ≤ ell M ^ 3 / 48 * s ^ 2 := mul_le_mul_of_nonneg_right hd (sq_nonneg _)
  have k3 : M * (|E - E0| * (M * G M ^ 3) * s ^ 2) = |E - E0| * (2 * M ^ 2 * G M ^ 3) * s ^ 2 / 2 := by ring
  linarith only [m, k1, k2, k3, nl]

/-- The algebra of `sensitivity`. -/
theorem sens_alg {g c s r δ D0 D n2 Ru cr uv I σ : ℝ} (hg : 1 ≤ g) (hc : 0 < c) (hs : 0 < s) (hr : 0 < r) (hδ : 0 ≤ δ) (hn : n2 ≤ 2 * g ^ 2 * s ^ 2) (hn0 : 0 < n2)
    (id : n2 * D = Ru * cr + D0 * uv) (hcr : cr = -δ * I) (hI : c * s ^ 2 ≤ I) (hRu : r * s / (2 * g) ≤ -(σ * Ru)) (hσ : |σ| = 1)
    (huv : |uv| ≤ 2 * g ^ 2 * s ^ 2) (hD0 : 8 * g ^ 3 / c * |D0| ≤ δ * (s * r)) : s * r * δ ≤ 8 * g ^ 3 / c * (σ * D) := by
  have a1 : n2 * (σ * D) = -(σ * Ru) * (δ * I) + σ * (D0 * uv) := by
    rw [show n2 * (σ * D) = σ * (n2 * D) by ring, id, hcr]; ring
  have a2 : r * s / (2 * g) * (δ * (c * s ^ 2)) ≤ -(σ * Ru) * (δ * I) :=
    mul_le_mul hRu (mul_le_mul_of_nonneg_left hI hδ) (by positivity) (le_trans (by positivity) hRu)
  have a3 : |σ * (D0 * uv)| ≤ |D0| * (2 * g ^ 2 * s ^ 2) := by
    rw [abs_mul, hσ, one_mul, abs_mul]
    exact mul_le_mul_of_nonneg_left huv (abs_nonneg _)
  have a4 := neg_abs_le (σ * (D0 * uv))
  have hg0 : 0 < g := by linarith
  have a5 : |D0| * (2 * g ^ 2 * s ^ 2) ≤ c / (4 * g) * s ^ 2 * (δ * (s * r)) := by
    calc |D0| * (2 * g ^ 2 * s ^ 2) = c / (4 * g) * s ^ 2 * (8 * g ^ 3 / c * |D0|) := by field_simp; ring
      _ ≤ _ := mul_le_mul_of_nonneg_left hD0 (by positivity)
  have a6 : r * s / (2 * g) * (δ * (c * s ^ 2)) = c / (2 * g) * s ^ 2 * (δ * (s * r)) := by ring
  have a7 : c / (2 * g) * s ^ 2 * (δ * (s * r)) = 2 * (c / (4 * g) * s ^ 2 * (δ * (s * r))) := by field_simp; ring
  have a8 : c / (4 * g) * s ^ 2 * (δ * (s * r)) ≤ n2 * (σ * D) := by linarith
  have p : 0 ≤ c / (4 * g) * s ^ 2 * (δ * (s * r)) := by positivity
  have pD : 0 ≤ σ * D := by
    by_contra hneg
    push Not at hneg
    have := mul_neg_of_pos_of_neg hn0 hneg
    linarith
  have a9 : n2 * (σ * D) ≤ 2 * g ^ 2 * s ^ 2 * (σ * D) := mul_le_mul_of_nonneg_right hn pD
  have a10 : c / (4 * g) * s ^ 2 * (δ * (s * r)) ≤ 2 * g ^ 2 * s ^ 2 * (σ * D) := a8.trans a9
  have a11 : s * r * δ = (4 * g / (c * s ^ 2)) * (c / (4 * g) * s ^ 2 * (δ * (s * r))) := by field_simp
  rw [a11]
  calc (4 * g / (c * s ^ 2)) * (c / (4 * g) * s ^ 2 * (δ * (s * r))) ≤ (4 * g / (c * s ^ 2)) * (2 * g ^ 2 * s ^ 2 * (σ * D)) :=
        mul_le_mul_of_nonneg_left a10 (by positivity)
    _ = 8 * g ^ 3 / c * (σ * D) := by field_simp; ring

set_option maxHeartbeats 800000 in
/-- **Sensitivity.** Where the mismatch `dy b · R₁ - R₂ · y b` of the solution with left values `L` is small, it changes sign within a
distance proportional to it, and its size is at least proportional to the distance. -/
theorem sensitivity (M : ℝ) (hM : 1 ≤ M) : ∃ C ρ : ℝ, 1 ≤ C ∧ 0 < ρ ∧ ρ ≤ 1 ∧ ∀ (W : Sec ℝ → ℝ → ℝ) (a b E0 : ℝ) (l : List (Sec ℝ)) (R : ℝ × ℝ) (z dz : ℝ → ℝ),
    Ok M W a l b → |E0| ≤ M → 0 < sz R → 0 < sz (z a, dz a) → SolvesMesh W E0 l z dz →
    C * |dz b * R.1 - R.2 * z b| ≤ sz (z a, dz a) * sz R →
    ∃ σ : ℝ, |σ| = 1 ∧ ∀ (E : ℝ) (y dy : ℝ → ℝ), |E - E0| ≤ ρ → C * |dz b * R.1 - R.2 * z b| ≤ |E - E0| * (sz (z a, dz a) * sz R) →
      SolvesMesh W E l y dy → y a = z a → dy a = dz a →
      (E0 ≤ E → sz (z a, dz a) * sz R * (E - E0) ≤ C * (σ * (dy b * R.1 - R.2 * y b))) ∧
      (E ≤ E0 → sz (z a, dz a) * sz R * (E0 - E) ≤ C * (-σ * (dy b * R.1 - R.2 * y b))) := by
  obtain ⟨l0, lM, l1, l7⟩ := ell_facts hM
  have hG := one_le_G hM
  have hG0 : 0 < G M := by linarith
  have hM0 : 0 < M := by linarith
  set c := ell M ^ 3 / 96 with hc
  have c0 : 0 < c := by positivity
  have c1 : c ≤ 1 := by
    have : ell M ^ 3 ≤ 1 := pow_le_one₀ l0.le l1
    rw [hc]; linarith
  set C := 8 * G M ^ 3 / c with hC
  have hC2 : 8 * G M ≤ C := by
    rw [hC, le_div_iff₀ c0]
    have h3 : G M ≤ G M ^ 3 := by
      calc G M = G M ^ 1 := (pow_one _).symm
        _ ≤ G M ^ 3 := pow_le_pow_right₀ hG (by norm_num)
    have : 8 * G M * c ≤ 8 * G M * 1 := mul_le_mul_of_nonneg_left c1 (by positivity)
    linarith
  refine ⟨C, ell M ^ 3 / 48 / (2 * M ^ 2 * G M ^ 3), by linarith, by positivity, ?_, ?_⟩
  · rw [div_le_one (by positivity)]
    have : ell M ^ 3 ≤ 1 := pow_le_one₀ l0.le l1
    have h3 : 1 ≤ G M ^ 3 := one_le_pow₀ hG
    have h4 : 1 ≤ M ^ 2 := one_le_pow₀ hM
    nlinarith
  intro W a b E0 l R z dz h hE0 hR hs hz hD
  set s := sz (z a, dz a) with hsd
  set r := sz R with hrd
  have hab : a ≤ b := (chn_range h.chn h.pos).1
  have bb : b ∈ Set.Icc a b := ⟨hab, le_rfl⟩
  set u1 := z b with hu1
  set u2 := dz b with hu2
  set D0 := u2 * R.1 - R.2 * u1 with hD0
  obtain ⟨gz1, gz2⟩ := h.growth hM (by linarith) hz bb
  rw [← hsd, ← hu1, ← hu2] at gz1 gz2
  have n2low : (s / G M) ^ 2 ≤ u1 ^ 2 + u2 ^ 2 := by
    have h1 : s / G M ≤ sz (u1, u2) := by rw [div_le_iff₀ hG0, mul_comm]; exact gz2
    have h2 := pow_le_pow_left₀ (by positivity) h1 2
    refine h2.trans ?_
    unfold sz
    rcases le_total |u1| |u2| with q | q
    · rw [max_eq_right q, sq_abs]; linarith [sq_nonneg u1]
    · rw [max_eq_left q, sq_abs]; linarith [sq_nonneg u2]
  have ab1 : |u1| ≤ G M * s := (le_sz1 (u1, u2)).trans gz1
  have ab2 : |u2| ≤ G M * s := (le_sz2 (u1, u2)).trans gz1
  have n2up : u1 ^ 2 + u2 ^ 2 ≤ 2 * G M ^ 2 * s ^ 2 := by
    have h1 := pow_le_pow_left₀ (abs_nonneg _) ab1 2
    have h2 := pow_le_pow_left₀ (abs_nonneg _) ab2 2
    rw [sq_abs] at h1 h2
    linarith [mul_pow (G M) s 2]
  have n2pos : 0 < u1 ^ 2 + u2 ^ 2 := lt_of_lt_of_le (by positivity) n2low
  have R2 : r ^ 2 ≤ R.1 ^ 2 + R.2 ^ 2 := by
    rw [hrd]; unfold sz
    rcases le_total |R.1| |R.2| with q | q
    · rw [max_eq_right q, sq_abs]; linarith [sq_nonneg R.1]
    · rw [max_eq_left q, sq_abs]; linarith [sq_nonneg R.2]
  set Ru := R.1 * u1 + R.2 * u2 with hRu
  have Rusq : Ru ^ 2 = (R.1 ^ 2 + R.2 ^ 2) * (u1 ^ 2 + u2 ^ 2) - D0 ^ 2 := by rw [hRu, hD0]; ring
  have D0b : |D0| ≤ r * s / (2 * G M) := by
    rw [le_div_iff₀ (by positivity)]
    have : |D0| * (2 * G M) ≤ C * |D0| := by
      rw [mul_comm]; exact mul_le_mul_of_nonneg_right (by linarith) (abs_nonneg _)
    linarith [mul_comm r s]
  have Rul : r * s / (2 * G M) ≤ |Ru| := by
    apply le_of_sq_le_sq _ (abs_nonneg _)
    rw [sq_abs, Rusq]
    have h1 : r ^ 2 * (s / G M) ^ 2 ≤ (R.1 ^ 2 + R.2 ^ 2) * (u1 ^ 2 + u2 ^ 2) := mul_le_mul R2 n2low (sq_nonneg _) (by positivity)
    have h2 := pow_le_pow_left₀ (abs_nonneg _) D0b 2
    rw [sq_abs] at h2
    have h3 : r ^ 2 * (s / G M) ^ 2 = 4 * (r * s / (2 * G M)) ^ 2 := by field_simp; ring
    have h4 := sq_nonneg (r * s / (2 * G M))
    linarith
  -- the sign
  obtain ⟨σ, hσ, hσR⟩ : ∃ σ : ℝ, |σ| = 1 ∧ -(σ * Ru) = |Ru| := by
    rcases le_total 0 Ru with q | q
    · exact ⟨-1, by norm_num, by rw [abs_of_nonneg q]; ring⟩
    · exact ⟨1, by norm_num, by rw [abs_of_nonpos q]; ring⟩
  refine ⟨σ, hσ, ?_⟩
  intro E y dy hEd hDE hy i1 i2
  have hE : |E| ≤ M + 1 := by
    have h1 : |E| ≤ |E0| + |E - E0| := by
      have := abs_add_le E0 (E - E0)
      rwa [add_sub_cancel] at this
    have h2 : ell M ^ 3 / 48 / (2 * M ^ 2 * G M ^ 3) ≤ 1 := by
      rw [div_le_one (by positivity)]
      have : ell M ^ 3 ≤ 1 := pow_le_one₀ l0.le l1
      have h3 : 1 ≤ G M ^ 3 := one_le_pow₀ hG
      have h4 : 1 ≤ M ^ 2 := one_le_pow₀ hM
      nlinarith
    linarith
  have ov := h.overlap hM hE (by linarith) hy hz i1 i2 (by rwa [le_div_iff₀ (by positivity)] at hEd)
  rw [← hsd, ← hc] at ov
  have gr := green (hy.right (h.okMesh hM hE)) (hz.right (h.okMesh hM (by linarith))) bb
  rw [i1, i2, show dz a * z a - z a * dz a = 0 by ring, sub_zero, ← hu1, ← hu2] at gr
  set I := ∫ t in a..b, y t * z t
  obtain ⟨gy1, -⟩ := h.growth hM hE hy bb
  rw [i1, i2, ← hsd] at gy1
  have av1 : |y b| ≤ G M * s := (le_sz1 (y b, dy b)).trans gy1
  have av2 : |dy b| ≤ G M * s := (le_sz2 (y b, dy b)).trans gy1
  have uv : |u1 * y b + u2 * dy b| ≤ 2 * G M ^ 2 * s ^ 2 := by
    refine (abs_add_le _ _).trans ?_
    rw [abs_mul, abs_mul]
    have h1 := mul_le_mul ab1 av1 (abs_nonneg _) (by positivity)
    have h2 := mul_le_mul ab2 av2 (abs_nonneg _) (by positivity)
    have h3 : G M * s * (G M * s) = G M ^ 2 * s ^ 2 := by ring
    linarith
  have idn : (u1 ^ 2 + u2 ^ 2) * (dy b * R.1 - R.2 * y b) = Ru * (dy b * u1 - y b * u2) + D0 * (u1 * y b + u2 * dy b) := by rw [hRu, hD0]; ring
  constructor
  · intro q
    rw [abs_of_nonneg (show 0 ≤ E - E0 by linarith)] at hDE
    exact sens_alg hG c0 hs hR (by linarith) n2up n2pos idn (by rw [gr]; ring) ov (by rw [hσR]; exact Rul) hσ uv hDE
  · intro q
    rw [abs_of_nonpos (show E - E0 ≤ 0 by linarith)] at hDE
    have j1 : (u1 ^ 2 + u2 ^ 2) * (dy b * R.1 - R.2 * y b) = (-Ru) * (-(dy b * u1 - y b * u2)) + D0 * (u1 * y b + u2 * dy b) := by
      rw [idn]; ring
    have j2 : -(dy b * u1 - y b * u2) = -(E0 - E) * I := by rw [gr]; ring
    have j3 : r * s / (2 * G M) ≤ -((-σ) * (-Ru)) := by
      have e : -(-σ * -Ru) = -(σ * Ru) := by ring
      rw [e, hσR]; exact Rul
    have j4 : |(-σ)| = 1 := by rw [abs_neg]; exact hσ
    have j5 : C * |D0| ≤ (E0 - E) * (s * r) := by
      have e : E0 - E = -(E - E0) := by ring
      rw [e]; exact hDE
    exact sens_alg hG c0 hs hR (by linarith) n2up n2pos j1 j2 ov j3 j4 uv j5

end Verif
