import Verif.Lemmas.EigenChain
import Verif.Lemmas.EigenNorm
import Verif.Props.EnergyConverge

/-!
# Values inside a sector, exact solutions near the eigenfunction
-/
namespace Verif.Solver
open Verif.Mesh Verif.YT Verif.CalcT Verif.Propag Verif.Formulas Verif.Legendre Verif.Spec Verif.Eigen

/-- Propagating inside a sector from one of its ends. -/
theorem sector_eval (M : ℝ) (hM : 1 ≤ M) : ∃ C : ℝ, 1 ≤ C ∧ ∀ (eps σ τ ε d : ℝ) (eta : ℕ → ℝ → ℕ → ℝ) (vs : Sec ℝ → ℕ → ℝ) (W : Sec ℝ → ℝ → ℝ) (dmin dmax H E : ℝ) (r : BuildResult ℝ)
    (y dy : ℝ → ℝ),
    FitMesh eps M H W dmin dmax r.sectors → EtaWithin σ eta → CoeffsWithin τ W r.sectors vs → τ + r.sectors.length * σ ≤ ε → ε ≤ 1 → 0 ≤ d → d ≤ 1 →
    |E| ≤ M → SolvesMesh W E r.sectors y dy →
    ∀ P, P = constructOf eps eta vs dmin dmax r → ∀ i (hi : i < P.secs.length) (x : ℝ), (P.secs[i]).min ≤ x → x ≤ (P.secs[i]).max → Skips eps d (P.secs[i]).min (P.secs[i]).max x →
    ∀ A, A = (P.secs[i]).min ∨ A = (P.secs[i]).max → ∀ c,
      sz (pr ((P.secs[i]).propagate E true c A x).1 - (y x, dy x)) ≤ C * (sz (pr c - (y A, dy A)) + (H ^ 15 + ε + d) * sz (y A, dy A)) := by
  obtain ⟨C, hC, key⟩ := sector_near M hM
  have C0 : 0 < C := by linarith
  refine ⟨Real.exp (2 * M) + 4 * C, by have := Real.exp_pos (2 * M); linarith, ?_⟩
  intro eps σ τ ε d eta vs W dmin dmax H E r y dy hf he hv hε hε1 hd0 hd1 hE hy P hP i hi x h1 h2 hsk A hA c
  obtain ⟨v0M, hsecs⟩ := construct_secs eps eta vs dmin dmax r
  rw [← hP] at hsecs
  have hir : i < r.sectors.length := by rw [hsecs, List.length_map] at hi; exact hi
  have hs : r.sectors[i] ∈ r.sectors := List.getElem_mem hir
  have hsi : P.secs[i] = sectorOf eps eta (vs (r.sectors[i])) v0M (r.sectors[i]) := by simp only [hsecs, List.getElem_map]
  rw [hsi] at h1 h2 hsk hA ⊢
  change (r.sectors[i]).min ≤ x at h1
  change x ≤ (r.sectors[i]).max at h2
  change Skips eps d (r.sectors[i]).min (r.sectors[i]).max x at hsk
  change A = (r.sectors[i]).min ∨ A = (r.sectors[i]).max at hA
  set s := r.sectors[i]
  have hH0 : 0 < H := fit_pos hf
  have hσ0 := he.nonneg
  have hτ0 : 0 ≤ τ := (hv s hs).nonneg
  have hN1 : (1 : ℝ) ≤ r.sectors.length := by exact_mod_cast hf.mesh.length_pos
  have hσN : σ ≤ r.sectors.length * σ := le_mul_of_one_le_left hσ0 hN1
  have hw := hf.wide s hs
  have hn := hf.narrow s hs
  have heps := hf.eps_nonneg
  have hlt : s.min < s.max := by linarith
  have hskA : Skips eps d s.min s.max A := by
    intro q1 q2
    rcases hA with h | h <;> rw [h] at q1 q2
    · exact absurd q1 (lt_irrefl _)
    · exact absurd q2 (lt_irrefl _)
  have hAI : A ∈ Set.Icc s.min s.max := by rcases hA with h | h <;> rw [h]
                                           · exact ⟨le_rfl, hlt.le⟩
                                           · exact ⟨hlt.le, le_rfl⟩
  obtain ⟨S, e1, near, -⟩ := key eps σ τ d eta (vs s) (W s) v0M E s true A x he (by linarith) (by linarith) hd0 hd1 hskA hsk heps hw (hn.trans hf.small) (hf.smooth s hs) (hv s hs) hE (hf.directed s hs)
  have cA : cl s.min s.max A = A := by unfold cl; rw [min_eq_left hAI.2, max_eq_right hAI.1]
  have cx : cl s.min s.max x = x := by unfold cl; rw [min_eq_left h2, max_eq_right h1]
  rw [cA, cx] at near
  obtain ⟨w, dw, hw', w1, w2⟩ := exists_solution_at (E := E) (hf.smooth s hs).continuousOn hAI (pr c)
  have n1 := near w dw hw'
  have epair : (w A, dw A) = pr c := by rw [w1, w2]
  rw [epair, ← e1] at n1
  have hdif := hw'.comb (hy s hs) 1 (-1)
  have fl := flow_bound (K := 2 * M) (by linarith) (fun t ht => by
    have := (hf.smooth s hs).bound ht
    have := abs_sub (W s t) E
    linarith) hdif hAI (x' := x) ⟨h1, h2⟩
  have hxA : |x - A| ≤ 1 := by
    have := hf.small
    rw [abs_le]; constructor <;> linarith [hAI.1, hAI.2]
  have ex : Real.exp (2 * M * |x - A|) ≤ Real.exp (2 * M) := Real.exp_le_exp.mpr (by nlinarith [abs_nonneg (x - A)])
  have q1 : sz ((w x, dw x) - (y x, dy x)) ≤ Real.exp (2 * M) * sz (pr c - (y A, dy A)) := by
    have a1 : ((w x, dw x) - (y x, dy x) : ℝ × ℝ) = (1 * w x + -1 * y x, 1 * dw x + -1 * dy x) := by
      ext <;> simp <;> ring
    have a2 : (pr c - (y A, dy A) : ℝ × ℝ) = (1 * w A + -1 * y A, 1 * dw A + -1 * dy A) := by
      rw [← epair]; ext <;> simp <;> ring
    rw [a1, a2]
    exact fl.trans (mul_le_mul_of_nonneg_right ex (sz_nonneg _))
  have tri := sz_tri (pr ((sectorOf eps eta (vs s) v0M s).propagate E true c A x).1) (w x, dw x) (y x, dy x)
  set ρ := H ^ 15 + ε + d with hρ
  have hε0 : 0 ≤ ε := by linarith
  have ρ0 : 0 ≤ ρ := by positivity
  have ρ3 : ρ ≤ 3 := by
    have := pow_le_one₀ (n := 15) hH0.le hf.small
    linarith
  have ee : C * ((s.max - s.min) ^ 15 + (s.max - s.min) * τ + σ + d) ≤ C * ρ := by
    refine mul_le_mul_of_nonneg_left ?_ C0.le
    have b1 : (s.max - s.min) ^ 15 ≤ H ^ 15 := pow_le_pow_left₀ (by linarith) hn 15
    have b2 : (s.max - s.min) * τ ≤ 1 * τ := mul_le_mul_of_nonneg_right (hn.trans hf.small) hτ0
    linarith
  have n2 := n1.trans (mul_le_mul_of_nonneg_right ee (sz_nonneg _))
  have n3 := sz_le_add (pr c) (y A, dy A)
  set X := sz (pr c - (y A, dy A)) with hX
  set Y := sz (y A, dy A) with hY
  have X0 : 0 ≤ X := sz_nonneg _
  have Y0 : 0 ≤ Y := sz_nonneg _
  have n4 : C * ρ * sz (pr c) ≤ C * ρ * (Y + X) := mul_le_mul_of_nonneg_left n3 (by positivity)
  have n5 : C * ρ * X ≤ C * 3 * X := mul_le_mul_of_nonneg_right (mul_le_mul_of_nonneg_left ρ3 C0.le) X0
  have n6 : 0 ≤ Real.exp (2 * M) * (ρ * Y) := mul_nonneg (Real.exp_pos _).le (by positivity)
  have n7 : 0 ≤ C * X := by positivity
  have n8 : 0 ≤ C * (ρ * Y) := by positivity
  linarith only [tri, n2, n4, n5, n6, n7, n8, q1]

/-- The exact solution at energy `E` through given boundary values, near a solution `u` at the energy `lam`. -/
theorem exact_side (M : ℝ) (hM : 1 ≤ M) : ∃ C : ℝ, 1 ≤ C ∧ ∀ (eps : ℝ) (W : Sec ℝ → ℝ → ℝ) (dmin dmax H E lam : ℝ) (secs : List (Sec ℝ)) (u du : ℝ → ℝ) (bc : ℝ × ℝ) (α x0 : ℝ),
    FitMesh eps M H W dmin dmax secs → dmax - dmin ≤ M → |E| ≤ M → |lam| ≤ M → SolvesMesh W lam secs u du → x0 ∈ Set.Icc dmin dmax → u x0 = α * bc.1 → du x0 = α * bc.2 →
    ∃ y dy z dz, SolvesMesh W E secs y dy ∧ EnergyMesh W E secs y z dz ∧ y x0 = bc.1 ∧ dy x0 = bc.2 ∧ z x0 = 0 ∧ dz x0 = 0 ∧
      ∀ x ∈ Set.Icc dmin dmax, sz (α * y x - u x, α * dy x - du x) ≤ C * |E - lam| * sz (u x0, du x0) ∧ sz (y x, dy x) ≤ C * sz bc ∧ sz (z x, dz x) ≤ C * sz bc := by
  set g := Real.exp (3 * M * M) with hg
  have g1 : 1 ≤ g := Real.one_le_exp (by positivity)
  have g0 : 0 < g := by linarith
  have gp : ∀ n : ℕ, 1 ≤ g ^ n := fun n => one_le_pow₀ g1
  refine ⟨2 * g ^ 5 * M, by nlinarith [gp 5], ?_⟩
  intro eps W dmin dmax H E lam secs u du bc α x0 hf hd hE hlam hu h0 u1 u2
  have hab : dmin ≤ dmax := h0.1.trans h0.2
  have okE := okMesh_all hf hM (F := E) (by linarith)
  have okL := okMesh_all hf hM (F := lam) (by linarith)
  obtain ⟨y, dy, hy, y1, y2⟩ := mesh_exists_at okE h0 bc
  obtain ⟨z, dz, hz, z1, z2⟩ := mesh_energy_exists_at okE hy h0 (0, 0)
  refine ⟨y, dy, z, dz, hy, hz, y1, y2, z1, z2, ?_⟩
  have eg : Real.exp (3 * M * (dmax - dmin)) ≤ g := Real.exp_le_exp.mpr (mul_le_mul_of_nonneg_left hd (by linarith))
  have e0 := (Real.exp_pos (3 * M * (dmax - dmin))).le
  have growth : ∀ x ∈ Set.Icc dmin dmax, sz (y x, dy x) ≤ g * g * sz bc := by
    intro x hx
    have a1 := (mesh_growth (by linarith) okE hy x hx).1
    have a2 := (mesh_growth (by linarith) okE hy x0 h0).2
    rw [y1, y2] at a2
    have b : ∀ t ∈ Set.Icc dmin dmax, Real.exp (3 * M * (t - dmin)) ≤ g := fun t ht =>
      (Real.exp_le_exp.mpr (mul_le_mul_of_nonneg_left (by linarith [ht.2]) (by linarith)))
    have a3 := a2.trans (mul_le_mul_of_nonneg_right (b x0 h0) (sz_nonneg bc))
    exact (a1.trans (mul_le_mul (b x hx) a3 (sz_nonneg _) g0.le)).trans (le_of_eq (by ring))
  have s0 := sz_nonneg bc
  have p5 : g * g ≤ g ^ 5 := by
    have := pow_le_pow_right₀ g1 (show 2 ≤ 5 by norm_num)
    rwa [pow_two] at this
  intro x hx
  refine ⟨?_, ?_, ?_⟩
  · have h := mesh_two_energies (by linarith) okL okE hu (hy.comb hy α 0) h0 hx (by rw [u1, y1]; ring) (by rw [u2, y2]; ring)
    have e : ((α * y x + 0 * y x) - u x, (α * dy x + 0 * dy x) - du x) = (α * y x - u x, α * dy x - du x) := by ext <;> ring
    rw [e] at h
    refine h.trans (mul_le_mul_of_nonneg_right (mul_le_mul_of_nonneg_right ?_ (abs_nonneg _)) (sz_nonneg _))
    exact mul_le_mul (mul_le_mul_of_nonneg_left (pow_le_pow_left₀ e0 eg 5) (by norm_num)) hd (by linarith) (by positivity)
  · refine (growth x hx).trans (mul_le_mul_of_nonneg_right ?_ s0)
    nlinarith [gp 5]
  · have h := mesh_source (by linarith) (by positivity) okE hz (fun t ht => (le_sz1 _).trans (growth t ht)) h0 hx z1 z2
    refine h.trans ?_
    have a1 : 2 * Real.exp (3 * M * (dmax - dmin)) ^ 3 ≤ 2 * g ^ 3 := mul_le_mul_of_nonneg_left (pow_le_pow_left₀ e0 eg 3) (by norm_num)
    have a2 : g * g * sz bc * (dmax - dmin) ≤ g * g * sz bc * M := mul_le_mul_of_nonneg_left hd (by positivity)
    exact (mul_le_mul a1 a2 (mul_nonneg (by positivity) (by linarith)) (by positivity)).trans (le_of_eq (by ring))

/-- A normalised solution is bounded above and below. -/
theorem normalised_bounds (M : ℝ) (hM : 1 ≤ M) : ∃ C : ℝ, 1 ≤ C ∧ ∀ (eps : ℝ) (W : Sec ℝ → ℝ → ℝ) (dmin dmax H lam : ℝ) (secs : List (Sec ℝ)) (u du : ℝ → ℝ),
    FitMesh eps M H W dmin dmax secs → dmax - dmin ≤ M → 1 / M ≤ dmax - dmin → |lam| ≤ M → SolvesMesh W lam secs u du → ∫ t in dmin..dmax, u t * u t = 1 →
    ∀ x ∈ Set.Icc dmin dmax, sz (u x, du x) ≤ C ∧ 1 / C ≤ sz (u x, du x) := by
  obtain ⟨l0, lM, l1, l7⟩ := ell_facts hM
  have hG := one_le_G hM
  have G0 : 0 < G M := by linarith
  have e3 : ell M ^ 3 ≤ 1 := pow_le_one₀ l0.le l1
  have e30 : 0 < ell M ^ 3 := by positivity
  have c1 : 1 ≤ 96 / ell M ^ 3 := by rw [le_div_iff₀ e30]; linarith
  refine ⟨G M * (96 / ell M ^ 3) + M * G M ^ 2, by nlinarith [one_le_mul_of_one_le_of_one_le hG c1, mul_nonneg (by linarith : 0 ≤ M) (sq_nonneg (G M))], ?_⟩
  intro eps W dmin dmax H lam secs u du hf hd hd' hlam hu hint x hx
  have ok := fit_ok hf hd hd'
  have hl1 : |lam| ≤ M + 1 := by linarith
  have ov := ok.overlap hM hl1 hl1 hu hu rfl rfl (by rw [sub_self, abs_zero, zero_mul]; positivity)
  rw [hint] at ov
  have hab : dmin ≤ dmax := hx.1.trans hx.2
  have gr := fun t ht => ok.growth hM hl1 hu (x := t) ht
  set S := sz (u dmin, du dmin) with hS
  have S0 : 0 ≤ S := sz_nonneg _
  have Sle : S ≤ 96 / ell M ^ 3 := by
    have h1 : S ^ 2 ≤ 96 / ell M ^ 3 := by rw [le_div_iff₀ e30]; linarith
    by_contra h
    push Not at h
    nlinarith
  have cu := (hu.right (ok.okMesh hM hl1)).c1
  have Sge : 1 ≤ M * G M * S := by
    have := intervalIntegral.norm_integral_le_of_norm_le_const (a := dmin) (b := dmax) (f := fun t => u t * u t) (C := (G M * S) * (G M * S)) (fun t ht => by
      rw [Set.uIoc_of_le hab] at ht
      have k := (le_sz1 _).trans (gr t ⟨ht.1.le, ht.2⟩).1
      rw [Real.norm_eq_abs, abs_mul]
      exact mul_le_mul k k (abs_nonneg _) (by positivity))
    rw [hint, norm_one, abs_of_nonneg (by linarith : 0 ≤ dmax - dmin)] at this
    have h2 : G M * S * (G M * S) * (dmax - dmin) ≤ G M * S * (G M * S) * M := mul_le_mul_of_nonneg_left hd (by positivity)
    by_contra h
    push Not at h
    have h3 : 0 ≤ M * G M * S := by positivity
    have h4 : G M * S ≤ M * G M * S := by
      have : G M * S ≤ M * (G M * S) := le_mul_of_one_le_left (by positivity) hM
      linarith
    have h5 : G M * S * (M * G M * S) < 1 := by nlinarith
    linarith [show G M * S * (G M * S) * M = G M * S * (M * G M * S) by ring]
  obtain ⟨k1, k2⟩ := gr x hx
  have p0 : 0 < G M * (96 / ell M ^ 3) := by positivity
  have p1 : 0 < M * G M ^ 2 := by positivity
  constructor
  · have := mul_le_mul_of_nonneg_left Sle G0.le
    linarith
  · rw [div_le_iff₀ (by linarith)]
    have a1 : M * G M * S ≤ M * G M * (G M * sz (u x, du x)) := mul_le_mul_of_nonneg_left k2 (by positivity)
    have a2 : 0 ≤ sz (u x, du x) * (G M * (96 / ell M ^ 3)) := mul_nonneg (sz_nonneg _) p0.le
    linarith [show M * G M * (G M * sz (u x, du x)) = sz (u x, du x) * (M * G M ^ 2) by ring]

end Verif.Solver
