import Verif.Lemmas.AngleCount
import Verif.Lemmas.Sens

/-!
# The exact Prüfer angle as a function of the energy
-/
namespace Verif.Solver
open Verif Verif.Prufer Verif.YT Verif.CalcT Verif.Mesh Verif.Propag Verif.Formulas Verif.Legendre Verif.Spec
open Real (pi)

theorem ok_nonzero {M : ℝ} (hM : 1 ≤ M) {W : Sec ℝ → ℝ → ℝ} {a b E : ℝ} {l : List (Sec ℝ)} (h : Ok M W a l b) (hE : |E| ≤ M)
    {y dy : ℝ → ℝ} (hy : SolvesMesh W E l y dy) {x x' : ℝ} (hx : x ∈ Set.Icc a b) (hx' : x' ∈ Set.Icc a b) (hn : 0 < sz (y x, dy x)) :
    0 < sz (y x', dy x') := by
  have hG := one_le_G hM
  have g1 := (h.growth hM (by linarith) hy hx).1
  have g2 := (h.growth hM (by linarith) hy hx').2
  have h1 : 0 < sz (y a, dy a) := by
    by_contra hc
    push Not at hc
    have := mul_nonpos_of_nonneg_of_nonpos (show 0 ≤ G M by linarith) hc
    linarith
  by_contra hc
  push Not at hc
  have := mul_nonpos_of_nonneg_of_nonpos (show 0 ≤ G M by linarith) hc
  linarith

theorem ok_lt {M : ℝ} (hM : 1 ≤ M) {W : Sec ℝ → ℝ → ℝ} {a b : ℝ} {l : List (Sec ℝ)} (h : Ok M W a l b) : a < b := by
  have h1 : 0 < 1 / M := by positivity
  have := h.long
  linarith

theorem ok_c1 {M : ℝ} (hM : 1 ≤ M) {W : Sec ℝ → ℝ → ℝ} {a b E : ℝ} {l : List (Sec ℝ)} (h : Ok M W a l b) (hE : |E| ≤ M)
    {y dy : ℝ → ℝ} (hy : SolvesMesh W E l y dy) {x : ℝ} (hx : x ∈ Set.Icc a b) (hn : 0 < sz (y x, dy x)) : C1NoDouble a b y dy := by
  have ok := h.okMesh hM (E := E) (by linarith)
  have hne : l ≠ [] := by
    rintro rfl
    have h1 := ok.chn
    simp only [Chn] at h1
    have := ok_lt hM h
    linarith
  refine ⟨mesh_deriv ok.chn ok.pos hne hy, (hy.right ok).c2, fun x' hx' hz => ?_⟩
  have := ok_nonzero hM h hE hy hx hx' hn
  rw [hz.1, hz.2] at this
  simp [sz] at this

/-- The solutions with given left values, with continuous angles that start alike. -/
theorem left_family {M : ℝ} (hM : 1 ≤ M) {W : Sec ℝ → ℝ → ℝ} {a b : ℝ} {l : List (Sec ℝ)} (h : Ok M W a l b) {u : ℝ × ℝ} (hu : 0 < sz u) {θ : ℝ}
    (hθ : IsAngle θ u.1 u.2) : ∃ y dy Θ : ℝ → ℝ → ℝ, ∀ E, |E| ≤ M → SolvesMesh W E l (y E) (dy E) ∧ y E a = u.1 ∧ dy E a = u.2 ∧
      ContAngle a b 1 (y E) (dy E) (Θ E) ∧ Θ E a = θ := by
  have hab := ok_lt hM h
  have ma : a ∈ Set.Icc a b := ⟨le_rfl, hab.le⟩
  have key : ∀ E, ∃ y dy Θ : ℝ → ℝ, |E| ≤ M → SolvesMesh W E l y dy ∧ y a = u.1 ∧ dy a = u.2 ∧ ContAngle a b 1 y dy Θ ∧ Θ a = θ := by
    intro E
    by_cases hE : |E| ≤ M
    · obtain ⟨y, dy, hy, y1, y2⟩ := mesh_exists (h.okMesh hM (E := E) (by linarith)) u
      have c1 := ok_c1 hM h hE hy ma (by rw [y1, y2]; exact hu)
      obtain ⟨Θ, h1, h2⟩ := contAngle_exists hab (sc := 1) one_pos c1 ma (θ := θ) (by rw [y1, y2, one_mul]; exact hθ)
      exact ⟨y, dy, Θ, fun _ => ⟨hy, y1, y2, h1, h2⟩⟩
    · exact ⟨0, 0, 0, fun h => absurd h hE⟩
  choose y dy Θ hk using key
  exact ⟨y, dy, Θ, hk⟩

/-- The angle at any point moves Lipschitz continuously with the energy, and at the right end increases at a positive rate. -/
theorem family_step (M : ℝ) (hM : 1 ≤ M) : ∃ C : ℝ, 1 ≤ C ∧ ∀ (W : Sec ℝ → ℝ → ℝ) (a b E F : ℝ) (l : List (Sec ℝ)) (y dy Θ z dz Φ : ℝ → ℝ),
    Ok M W a l b → |E| ≤ M → |F| ≤ M → SolvesMesh W E l y dy → SolvesMesh W F l z dz → y a = z a → dy a = dz a → 0 < sz (y a, dy a) →
    ContAngle a b 1 y dy Θ → ContAngle a b 1 z dz Φ → Θ a = Φ a → E ≤ F → C * (F - E) ≤ 1 →
    Φ b - Θ b ≤ C * (F - E) ∧ F - E ≤ C * (Φ b - Θ b) := by
  obtain ⟨l0, lM, l1, l7⟩ := ell_facts hM
  have hG := one_le_G hM
  have hG0 : 0 < G M := by linarith
  set C1 := 4 * (M * G M ^ 3) with hC1
  set C2 := 2 * M ^ 2 * G M ^ 3 / (ell M ^ 3 / 48) with hC2
  set C3 := 2 * G M ^ 2 / (ell M ^ 3 / 96) with hC3
  have p1 : 0 < C1 := by positivity
  have p2 : 0 < C2 := by positivity
  have p3 : 0 < C3 := by positivity
  refine ⟨8 * C1 + C2 + C3 + 1, by linarith, ?_⟩
  intro W a b E F l y dy Θ z dz Φ h hE hF hy hz i1 i2 hs hΘ hΦ hi hEF hC
  set s := sz (y a, dy a) with hsd
  have hab := ok_lt hM h
  set δ := F - E with hδ
  have δ0 : 0 ≤ δ := by linarith
  have q1 : 8 * (C1 * δ) ≤ 1 := by
    have := mul_nonneg p2.le δ0
    have := mul_nonneg p3.le δ0
    linarith
  have q2 : C2 * δ ≤ 1 := by
    have := mul_nonneg p1.le δ0
    have := mul_nonneg p3.le δ0
    linarith
  have ry := hy.right (h.okMesh hM (E := E) (by linarith))
  have rz := hz.right (h.okMesh hM (E := F) (by linarith))
  have dep : ∀ x ∈ Set.Icc a b, sz ((z x, dz x) - (y x, dy x)) ≤ C1 / 4 * δ * sz (y x, dy x) := by
    intro x hx
    have bz : ∀ x ∈ Set.Ico a b, |z x| ≤ G M * s := fun x hx => by
      have := (le_sz1 (z x, dz x)).trans (h.growth hM (by linarith) hz ⟨hx.1, hx.2.le⟩).1
      rwa [← i1, ← i2] at this
    have := energy_dep (w := glue W l) (E := E) (F := F) (K := 3 * M) (B := G M * s) (by linarith) (by positivity)
      (glue_bound (h.okMesh hM (by linarith))) ry rz i1.symm i2.symm bz hx
    have e : Real.exp (3 * M * (x - a)) ≤ G M := Real.exp_le_exp.mpr (mul_le_mul_of_nonneg_left (by linarith [hx.2, h.short]) (by linarith))
    rw [← hδ, abs_of_nonneg δ0] at this
    have xa : x - a ≤ M := by linarith [hx.2, h.short]
    have xa0 : 0 ≤ x - a := by linarith [hx.1]
    have g2 := (h.growth hM (by linarith) hy hx).2
    rw [← hsd] at g2
    calc sz ((z x, dz x) - (y x, dy x)) ≤ δ * (G M * s) * (x - a) * Real.exp (3 * M * (x - a)) := this
      _ ≤ δ * (G M * s) * M * G M := mul_le_mul (mul_le_mul_of_nonneg_left xa (by positivity)) e (Real.exp_pos _).le (by positivity)
      _ ≤ δ * (G M * (G M * sz (y x, dy x))) * M * G M := by
          refine mul_le_mul_of_nonneg_right (mul_le_mul_of_nonneg_right (mul_le_mul_of_nonneg_left (mul_le_mul_of_nonneg_left g2 hG0.le) δ0) (by linarith)) hG0.le
      _ = C1 / 4 * δ * sz (y x, dy x) := by rw [hC1]; ring
  have ma : a ∈ Set.Icc a b := ⟨le_rfl, hab.le⟩
  have mb : b ∈ Set.Icc a b := ⟨hab.le, le_rfl⟩
  have hN : ∀ x ∈ Set.Icc a b, 0 < sz (y x, dy x) := fun x hx => ok_nonzero hM h hE hy ma hx hs
  have lip := cont_small (f := fun x => Φ x - Θ x) (c := 4 * (1 * (C1 / 4 * δ))) hab.le (hΦ.cont.sub hΘ.cont) (by rw [hi, sub_self]) (by linarith) (by
    intro x hx
    exact near_angle (S := 1) (sc := 1) (u := (z x, dz x)) (w := (y x, dy x)) le_rfl (by norm_num) (hN x hx) (hΦ.angle x hx) (hΘ.angle x hx) (dep x hx) (by linarith))
  have lip : |Φ b - Θ b| ≤ C1 * δ := by linarith
  constructor
  · have := mul_nonneg p2.le δ0
    have := mul_nonneg p3.le δ0
    have := mul_nonneg p1.le δ0
    linarith [le_abs_self (Φ b - Θ b)]
  · -- the rate
    obtain ⟨ρ, e1, e2⟩ := (hΘ.angle b mb).rep
    obtain ⟨ρ', e3, e4⟩ := (hΦ.angle b mb).rep
    rw [one_mul] at e1 e3
    have gr := green ry rz mb
    rw [i1, i2, show dz a * z a - z a * dz a = 0 by ring, sub_zero, ← hδ] at gr
    have ov := h.overlap hM (E := E) (E0 := F) (by linarith) (by linarith) hy hz i1 i2 (by
      rw [abs_sub_comm, ← hδ, abs_of_nonneg δ0]
      rw [hC2, div_mul_eq_mul_div, div_le_one (by positivity)] at q2
      linarith)
    rw [← i1, ← i2, ← hsd] at ov
    set I := ∫ t in a..b, y t * z t
    have hsin : ρ * ρ' * Real.sin (Φ b - Θ b) = δ * I := by
      rw [← gr, e1, e2, e3, e4, Real.sin_sub]; ring
    have hcos : ρ * ρ' * Real.cos (Φ b - Θ b) = y b * z b + dy b * dz b := by
      rw [e1, e2, e3, e4, Real.cos_sub]; ring
    set nb := sz (y b, dy b) with hnb
    have nb0 : 0 < nb := hN b mb
    obtain ⟨r1, -⟩ := rot_near (sc := 1) (S := 1) (u := y b) (v := dy b) (u' := z b) (v' := dz b) (m := nb) (c := C1 / 4 * δ) le_rfl (by norm_num) nb0
      (le_sz1 (y b, dy b)) (le_sz2 (y b, dy b)) (sz_eq (y b, dy b)) ((le_sz1 ((z b, dz b) - (y b, dy b))).trans (dep b mb))
      ((le_sz2 ((z b, dz b) - (y b, dy b))).trans (dep b mb)) (by linarith)
    rw [one_mul, one_mul] at r1
    have hlt := abs_le.mp lip
    have hc0 : 0 < Real.cos (Φ b - Θ b) := Real.cos_pos_of_mem_Ioo ⟨by linarith [hlt.1, Real.pi_gt_three], by linarith [hlt.2, Real.pi_gt_three]⟩
    have hρ : 0 < ρ * ρ' := by
      by_contra hc
      push Not at hc
      have := mul_nonpos_of_nonpos_of_nonneg hc hc0.le
      linarith
    -- upper bound of ρ ρ'
    have up : ρ * ρ' ≤ 2 * G M ^ 2 * s ^ 2 := by
      have hy2 : ρ ^ 2 ≤ 2 * (G M * s) ^ 2 := by
        have : ρ ^ 2 = (y b) ^ 2 + (dy b) ^ 2 := by
          rw [e1, e2]; linear_combination (-ρ ^ 2) * Real.sin_sq_add_cos_sq (Θ b)
        have g := (h.growth hM (by linarith) hy mb).1
        have b1 := pow_le_pow_left₀ (abs_nonneg _) ((le_sz1 (y b, dy b)).trans g) 2
        have b2 := pow_le_pow_left₀ (abs_nonneg _) ((le_sz2 (y b, dy b)).trans g) 2
        rw [sq_abs] at b1 b2
        rw [this]; linarith
      have hz2 : ρ' ^ 2 ≤ 2 * (G M * s) ^ 2 := by
        have : ρ' ^ 2 = (z b) ^ 2 + (dz b) ^ 2 := by
          rw [e3, e4]; linear_combination (-ρ' ^ 2) * Real.sin_sq_add_cos_sq (Φ b)
        have g := (h.growth hM (by linarith) hz mb).1
        rw [← i1, ← i2] at g
        have b1 := pow_le_pow_left₀ (abs_nonneg _) ((le_sz1 (z b, dz b)).trans g) 2
        have b2 := pow_le_pow_left₀ (abs_nonneg _) ((le_sz2 (z b, dz b)).trans g) 2
        rw [sq_abs] at b1 b2
        rw [this]; linarith
      have e5 : (G M * s) ^ 2 = G M ^ 2 * s ^ 2 := by ring
      have := sq_nonneg (ρ - ρ')
      linarith
    have k0 : 0 < ell M ^ 3 / 96 * s ^ 2 := by positivity
    have m1 : δ * (ell M ^ 3 / 96 * s ^ 2) ≤ δ * I := mul_le_mul_of_nonneg_left ov δ0
    have t0 : 0 ≤ Real.sin (Φ b - Θ b) := by
      by_contra hc
      push Not at hc
      have := mul_neg_of_pos_of_neg hρ hc
      have : 0 ≤ δ * (ell M ^ 3 / 96 * s ^ 2) := by positivity
      linarith
    have m2 : ρ * ρ' * Real.sin (Φ b - Θ b) ≤ 2 * G M ^ 2 * s ^ 2 * Real.sin (Φ b - Θ b) := mul_le_mul_of_nonneg_right up t0
    have t1 : 0 ≤ Φ b - Θ b := by
      by_contra hc
      push Not at hc
      have := Real.sin_neg_of_neg_of_neg_pi_lt hc (by linarith [hlt.1, Real.pi_gt_three])
      linarith
    have m3 := Real.sin_le t1
    have m4 : 2 * G M ^ 2 * s ^ 2 * Real.sin (Φ b - Θ b) ≤ 2 * G M ^ 2 * s ^ 2 * (Φ b - Θ b) := mul_le_mul_of_nonneg_left m3 (by positivity)
    have m5 : δ * (ell M ^ 3 / 96 * s ^ 2) ≤ 2 * G M ^ 2 * s ^ 2 * (Φ b - Θ b) := by linarith
    have m6 : δ ≤ C3 * (Φ b - Θ b) := by
      rw [hC3, div_mul_eq_mul_div, le_div_iff₀ (by positivity)]
      have : s ^ 2 * (δ * (ell M ^ 3 / 96)) ≤ s ^ 2 * (2 * G M ^ 2 * (Φ b - Θ b)) := by linarith
      exact le_of_mul_le_mul_left this (by positivity)
    have := mul_nonneg p1.le t1
    have := mul_nonneg p2.le t1
    linarith

end Verif.Solver
