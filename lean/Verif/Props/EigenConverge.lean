import Verif.Lemmas.EigenInside
import Verif.Props.NewtonConverge
import Verif.Spec.Eigenfunction

/-!
# C98: the returned eigenfunction converges to the exact normalised eigenfunction

`MEigenfunction` (`Model/Eigen`), built on the solver's own sectors (`Model/Solver`).
-/
namespace Verif.Solver
open Verif.Mesh Verif.YT Verif.CalcT Verif.Propag Verif.Formulas Verif.Legendre Verif.Spec Verif.Eigen Verif.Search

theorem exists_factor {a b : ℝ × ℝ} (hb : b.1 ≠ 0 ∨ b.2 ≠ 0) (h : a.1 * b.2 = a.2 * b.1) : ∃ α, a.1 = α * b.1 ∧ a.2 = α * b.2 := by
  by_cases h1 : b.1 = 0
  · have h2 : b.2 ≠ 0 := hb.resolve_left (by simpa using h1)
    refine ⟨a.2 / b.2, ?_, by field_simp⟩
    rw [h1, mul_zero] at h
    rw [h1, mul_zero]
    exact (mul_eq_zero.mp h).resolve_right h2
  · refine ⟨a.1 / b.1, by field_simp, ?_⟩
    field_simp
    linarith

/-- A scaled value: from the step `c` (scaled by `ς β k`) to the value `v` near `ς u`. -/
theorem value_near {ς β k C2 e1 ρ c e2 e3 : ℝ} {v p yA yx ux : ℝ × ℝ} (hς : ς = 1 ∨ ς = -1) (C20 : 0 ≤ C2) (hρ : 0 ≤ ρ) (hk : |k - 1| ≤ e3) (e31 : e3 ≤ 2)
    (hv : sz (v - (ς * β * k) • yx) ≤ C2 * (sz ((ς * β * k) • p - (ς * β * k) • yA) + ρ * sz ((ς * β * k) • yA)))
    (hp : |β| * sz (p - yA) ≤ e1) (hA : sz (β • yA) ≤ 2 * c) (hx : sz (β • yx - ux) ≤ e2) (hu : sz ux ≤ c) :
    sz (v - ς • ux) ≤ C2 * (3 * e1 + ρ * (6 * c)) + (3 * e2 + e3 * c) := by
  have aς : |ς| = 1 := by rcases hς with h | h <;> rw [h] <;> simp
  have ak : |k| ≤ 3 := by
    have := abs_add_le (k - 1) 1
    rw [abs_one, sub_add_cancel] at this
    linarith
  have e10 : 0 ≤ e1 := (mul_nonneg (abs_nonneg _) (sz_nonneg _)).trans hp
  have c0 : 0 ≤ c := (sz_nonneg _).trans hu
  have e30 : 0 ≤ e3 := (abs_nonneg _).trans hk
  have b1 : sz ((ς * β * k) • p - (ς * β * k) • yA) ≤ 3 * e1 := by
    rw [← smul_sub, sz_smul, abs_mul, abs_mul, aς, one_mul]
    have := mul_le_mul ak hp (mul_nonneg (abs_nonneg _) (sz_nonneg _)) (by norm_num)
    linarith [show |β| * |k| * sz (p - yA) = |k| * (|β| * sz (p - yA)) by ring]
  have b2 : sz ((ς * β * k) • yA) ≤ 6 * c := by
    rw [show (ς * β * k) • yA = (ς * k) • (β • yA) by rw [smul_smul]; congr 1; ring, sz_smul, abs_mul, aς, one_mul]
    have := mul_le_mul ak hA (sz_nonneg _) (by norm_num)
    linarith
  have b3 : sz ((ς * β * k) • yx - ς • ux) ≤ 3 * e2 + e3 * c := by
    have e : (ς * β * k) • yx - ς • ux = ς • (k • (β • yx - ux) + (k - 1) • ux) := by
      ext <;> simp <;> ring
    rw [e, sz_smul, aς, one_mul]
    refine (sz_add _ _).trans ?_
    rw [sz_smul, sz_smul]
    exact add_le_add (mul_le_mul ak hx (sz_nonneg _) (by norm_num)) (mul_le_mul hk hu (sz_nonneg _) e30)
  have b4 := sz_tri v ((ς * β * k) • yx) (ς • ux)
  have b5 : C2 * (sz ((ς * β * k) • p - (ς * β * k) • yA) + ρ * sz ((ς * β * k) • yA)) ≤ C2 * (3 * e1 + ρ * (6 * c)) :=
    mul_le_mul_of_nonneg_left (add_le_add b1 (mul_le_mul_of_nonneg_left b2 hρ)) C20
  linarith

/-- The part of the norm from one side. -/
theorem side_norm {α s c C1 C3 κ δ M I J a b : ℝ} {cc : Y ℝ} {yv zv : ℝ × ℝ} (hC1 : 1 ≤ C1) (hC3 : 1 ≤ C3) (hκ : 0 ≤ κ) (hκ2 : κ ≤ 2) (hs : 0 ≤ s) (hc : |α| * s ≤ c) (hM : 1 ≤ M) (hδ : 0 ≤ δ) (hc1 : 1 ≤ c)
    (h1 : sz (pr cc - yv) ≤ C1 * κ * s) (h2 : sz (pe cc - zv) ≤ C1 * κ * s) (h3 : sz yv ≤ C3 * s) (h4 : sz zv ≤ C3 * s) (h5 : bl yv zv = I) (hJ : |α ^ 2 * I - J| ≤ 3 * c * (C3 * δ * c) * (b - a))
    (hab : b - a ≤ M) : |α ^ 2 * (cc.yE * cc.dy - cc.dyE * cc.y) - J| ≤ 8 * (C1 + C3) ^ 2 * c ^ 2 * M * (κ + δ) := by
  have n := bl_near (g := C1 + C3) (e := C1 * κ) (s := s) (r := s) (u := yv) (u' := pr cc) (v := zv) (v' := pe cc) (by linarith) (by positivity) (by nlinarith) hs hs
    (h3.trans (mul_le_mul_of_nonneg_right (by linarith) hs)) (h4.trans (mul_le_mul_of_nonneg_right (by linarith) hs)) h1 h2
  rw [h5] at n
  have e : cc.yE * cc.dy - cc.dyE * cc.y = bl (pr cc) (pe cc) := by simp only [bl, pr, pe]; ring
  rw [e]
  have a1 : |α ^ 2 * (bl (pr cc) (pe cc) - I)| ≤ 8 * (C1 + C3) * (C1 * κ) * c ^ 2 := by
    rw [abs_mul, abs_of_nonneg (sq_nonneg α), ← sq_abs]
    have k1 := mul_le_mul_of_nonneg_left n (sq_nonneg |α|)
    have k2 : (|α| * s) ^ 2 ≤ c ^ 2 := pow_le_pow_left₀ (mul_nonneg (abs_nonneg _) hs) hc 2
    have k3 := mul_le_mul_of_nonneg_left k2 (show 0 ≤ 8 * (C1 + C3) * (C1 * κ) by positivity)
    linarith [show |α| ^ 2 * (8 * (C1 + C3) * (C1 * κ) * (s * s)) = 8 * (C1 + C3) * (C1 * κ) * (|α| * s) ^ 2 by ring]
  have tri : |α ^ 2 * bl (pr cc) (pe cc) - J| ≤ |α ^ 2 * (bl (pr cc) (pe cc) - I)| + |α ^ 2 * I - J| := by
    have := abs_add_le (α ^ 2 * (bl (pr cc) (pe cc) - I)) (α ^ 2 * I - J)
    rwa [show α ^ 2 * (bl (pr cc) (pe cc) - I) + (α ^ 2 * I - J) = α ^ 2 * bl (pr cc) (pe cc) - J by ring] at this
  have q1 : 3 * c * (C3 * δ * c) * (b - a) ≤ 3 * c * (C3 * δ * c) * M := mul_le_mul_of_nonneg_left hab (by positivity)
  have p1 : 8 * (C1 + C3) * C1 * c ^ 2 * κ ≤ 8 * (C1 + C3) ^ 2 * c ^ 2 * M * κ := by
    refine mul_le_mul_of_nonneg_right ?_ hκ
    have k1 : 8 * (C1 + C3) * C1 * c ^ 2 ≤ 8 * (C1 + C3) ^ 2 * c ^ 2 := mul_le_mul_of_nonneg_right (by nlinarith) (sq_nonneg c)
    exact k1.trans (le_mul_of_one_le_right (by positivity) hM)
  have p2 : 3 * c ^ 2 * C3 * M * δ ≤ 8 * (C1 + C3) ^ 2 * c ^ 2 * M * δ := by
    refine mul_le_mul_of_nonneg_right (mul_le_mul_of_nonneg_right ?_ (by linarith)) hδ
    have k1 : 3 * C3 ≤ 8 * (C1 + C3) ^ 2 := by nlinarith
    have := mul_le_mul_of_nonneg_right k1 (sq_nonneg c)
    linarith [show 3 * c ^ 2 * C3 = 3 * C3 * c ^ 2 by ring]
  linarith only [a1, tri, q1, hJ, p1, p2]

set_option maxHeartbeats 1600000 in
theorem eigen_values_near (M : ℝ) (hM : 1 ≤ M) : ∃ C : ℝ, 1 ≤ C ∧ ∀ (eps ε : ℝ) (eta : ℕ → ℝ → ℕ → ℝ) (vs : Sec ℝ → ℕ → ℝ) (W : Sec ℝ → ℝ → ℝ)
    (dmin dmax H lam E : ℝ) (r : BuildResult ℝ) (left right : Y ℝ) (u du : ℝ → ℝ),
    FitMesh eps M H W dmin dmax r.sectors → AccurateTo ε W r.sectors eta vs → dmax - dmin ≤ M → 1 / M ≤ dmax - dmin → |lam| ≤ M →
    r.matchIndex < r.sectors.length → (left.y ≠ 0 ∨ left.dy ≠ 0) → (right.y ≠ 0 ∨ right.dy ≠ 0) →
    left.yE = 0 → left.dyE = 0 → right.yE = 0 → right.dyE = 0 →
    IsEigenfunction W r.sectors dmin dmax (left.y, left.dy) (right.y, right.dy) lam u du →
    C * (H ^ 16 + ε + |E - lam|) ≤ 1 →
    ∃ f ς, eigenfunction Real.sqrt (constructOf eps eta vs dmin dmax r) E left right = .ok f ∧ f.WF ∧ f.dmin = dmin ∧ f.dmax = dmax ∧ (ς = 1 ∨ ς = -1) ∧
      ∀ x ∈ Set.Icc dmin dmax, ∀ d, 0 ≤ d → d ≤ 1 → (∀ s ∈ r.sectors, Skips eps d s.min s.max x) → ∀ v, f.IsValueAt x v →
        |v.1 - ς * u x| ≤ C * (H ^ 15 + ε + d + |E - lam|) ∧ |v.2 - ς * du x| ≤ C * (H ^ 15 + ε + d + |E - lam|) := by
  obtain ⟨C1, hC1, chain⟩ := eigen_chain (M + 1) (by linarith)
  obtain ⟨C2, hC2, inside⟩ := sector_eval (M + 1) (by linarith)
  obtain ⟨C3, hC3, side⟩ := exact_side (M + 1) (by linarith)
  obtain ⟨c, hc, nb⟩ := normalised_bounds M hM
  obtain ⟨K, hK⟩ : ∃ K, K = 8 * (C1 + C3) ^ 2 * c ^ 2 * M := ⟨_, rfl⟩
  have c0 : 0 < c := by linarith
  have C10 : 0 < C1 := by linarith
  have C30 : 0 < C3 := by linarith
  have C20 : 0 < C2 := by linarith
  have K0 : 0 < K := by rw [hK]; positivity
  have cc : c ≤ c ^ 2 := by nlinarith
  have KC : (C1 + C3) * c ≤ K := by
    have k1 : C1 + C3 ≤ 8 * (C1 + C3) ^ 2 := by nlinarith
    have k2 : (C1 + C3) * c ≤ 8 * (C1 + C3) ^ 2 * c ^ 2 := mul_le_mul k1 cc c0.le (by positivity)
    rw [hK]
    exact k2.trans (le_mul_of_one_le_right (by positivity) hM)
  have KC1 : C1 * c ≤ K := le_trans (mul_le_mul_of_nonneg_right (by linarith) c0.le) KC
  have KC3 : C3 * c ≤ K := le_trans (mul_le_mul_of_nonneg_right (by linarith) c0.le) KC
  have K1 : 1 ≤ K := le_trans (one_le_mul_of_one_le_of_one_le hC1 hc) KC1
  refine ⟨34 * c * K + (3 * C2 * C1 * c + 6 * c * C2 + 3 * C3 * c + 42 * c ^ 2 * K), ?_, ?_⟩
  · have : 1 ≤ c * K := one_le_mul_of_one_le_of_one_le hc K1
    have : 0 ≤ 3 * C2 * C1 * c + 6 * c * C2 + 3 * C3 * c + 42 * c ^ 2 * K := by positivity
    linarith
  intro eps ε eta vs W dmin dmax H lam E r left right u du hf ⟨hε1, σ, τ, he, hv, hε⟩ hd hd' hlam hm hl hr l3 l4 r3 r4 heig hsmall
  have hfN := fit_le hf (show M ≤ M + 1 by linarith)
  have hH0 := fit_pos hf
  have hε0 : 0 ≤ ε := by
    have h1 := (hv _ (List.getElem_mem hm)).nonneg
    have h2 := mul_nonneg (Nat.cast_nonneg (α := ℝ) r.sectors.length) he.nonneg
    linarith
  obtain ⟨δ, hδ⟩ : ∃ δ, δ = |E - lam| := ⟨_, rfl⟩
  obtain ⟨κ, hκ⟩ : ∃ κ, κ = H ^ 16 + ε := ⟨_, rfl⟩
  have δ0 : 0 ≤ δ := by rw [hδ]; exact abs_nonneg _
  have κ0 : 0 ≤ κ := by rw [hκ]; positivity
  rw [← hδ, ← hκ] at hsmall
  have P0 : 0 ≤ 3 * C2 * C1 * c + 6 * c * C2 + 3 * C3 * c + 42 * c ^ 2 * K := by positivity
  have hη34 : 34 * c * (K * (κ + δ)) ≤ 1 := by
    have : 34 * c * K * (κ + δ) ≤ (34 * c * K + (3 * C2 * C1 * c + 6 * c * C2 + 3 * C3 * c + 42 * c ^ 2 * K)) * (κ + δ) :=
      mul_le_mul_of_nonneg_right (by linarith) (by positivity)
    linarith
  have hKκ : K * (κ + δ) ≤ 1 := by
    have : K * (κ + δ) ≤ 34 * c * (K * (κ + δ)) := le_mul_of_one_le_left (by positivity) (by linarith)
    linarith
  have κδ1 : κ + δ ≤ 1 := (le_mul_of_one_le_left (by positivity) K1).trans hKκ
  have C3δ : C3 * δ ≤ 1 := by
    have k1 : C3 ≤ K := by
      have : C3 * 1 ≤ (C1 + C3) * c := mul_le_mul (by linarith) hc (by norm_num) (by positivity)
      linarith
    have := mul_le_mul_of_nonneg_right k1 δ0
    linarith only [this, mul_nonneg K0.le κ0, hKκ]
  have hEM : |E| ≤ M + 1 := by
    have := abs_add_le (E - lam) lam
    rw [sub_add_cancel, ← hδ] at this
    linarith
  have hlamN : |lam| ≤ M + 1 := by linarith
  have hab : dmin ≤ dmax := by have : 0 < 1 / M := by positivity
                               linarith
  have aI : dmin ∈ Set.Icc dmin dmax := ⟨le_rfl, hab⟩
  have bI : dmax ∈ Set.Icc dmin dmax := ⟨hab, le_rfl⟩
  have ub := nb eps W dmin dmax H lam r.sectors u du hf hd hd' hlam heig.solves heig.norm
  -- the factors
  obtain ⟨α, a1, a2⟩ := exists_factor (a := (u dmin, du dmin)) (b := (left.y, left.dy)) hl heig.left
  obtain ⟨β, b1, b2⟩ := exists_factor (a := (u dmax, du dmax)) (b := (right.y, right.dy)) hr heig.right
  simp only at a1 a2 b1 b2
  have pos1c : 0 < 1 / c := by positivity
  have hα : α ≠ 0 := by
    intro h
    have := (ub dmin aI).2
    rw [a1, a2, h] at this
    simp [sz] at this
    linarith
  have hβ : β ≠ 0 := by
    intro h
    have := (ub dmax bI).2
    rw [b1, b2, h] at this
    simp [sz] at this
    linarith
  have szα : |α| * sz (left.y, left.dy) ≤ c := by
    rw [← sz_smul]
    have := (ub dmin aI).1
    rw [a1, a2] at this
    exact this
  have szβ : |β| * sz (right.y, right.dy) ≤ c := by
    rw [← sz_smul]
    have := (ub dmax bI).1
    rw [b1, b2] at this
    exact this
  -- the exact solutions at the energy `E`
  obtain ⟨yL, dyL, zL, dzL, sL, eL, yL1, yL2, zL1, zL2, bL⟩ := side eps W dmin dmax H E lam r.sectors u du (left.y, left.dy) α dmin hfN (by linarith) hEM hlamN heig.solves aI a1 a2
  obtain ⟨yR, dyR, zR, dzR, sR, eR, yR1, yR2, zR1, zR2, bR⟩ := side eps W dmin dmax H E lam r.sectors u du (right.y, right.dy) β dmax hfN (by linarith) hEM hlamN heig.solves bI b1 b2
  rw [← hδ] at bL bR
  obtain ⟨P, hP⟩ : ∃ P, P = constructOf eps eta vs dmin dmax r := ⟨_, rfl⟩
  obtain ⟨⟨QL, qL1, qL2, qL3⟩, -⟩ := chain eps σ τ ε eta vs W dmin dmax H E r yL dyL zL dzL hfN he hv hε hε1 (by linarith) hEM sL eL P hP
  obtain ⟨-, ⟨QR, qR1, qR2, qR3⟩⟩ := chain eps σ τ ε eta vs W dmin dmax H E r yR dyR zR dzR hfN he hv hε hε1 (by linarith) hEM sR eR P hP
  rw [yL1, yL2] at qL2 qL3
  rw [zL1, zL2] at qL2 qL3
  rw [yR1, yR2] at qR2 qR3
  rw [zR1, zR2] at qR2 qR3
  rw [← hκ] at qL3 qR3
  have sz00 : sz ((0 : ℝ), (0 : ℝ)) = 0 := by simp [sz]
  rw [sz00, zero_add] at qL3 qR3
  have hPm : P.mesh = r.sectors := by rw [hP]; exact construct_mesh _ _ _ _ _ _
  have hPmin : P.dmin = dmin := by rw [hP]; rfl
  have hPmax : P.dmax = dmax := by rw [hP]; rfl
  have hmesh : IsMesh P.mesh P.dmin P.dmax := by rw [hPm, hPmin, hPmax]; exact hf.mesh
  have hlen : P.secs.length = r.sectors.length := by rw [← mesh_length, hPm]
  have hmi : P.matchIndex = r.matchIndex := by rw [hP]; rfl
  have hPM : P.matchIndex < P.secs.length := by rw [hmi, hlen]; exact hm
  obtain ⟨steps, yl, yr, st1, st2, ql, qr, st3⟩ := steps_ind QL QR hPM qL1 qR1 (qL2 left rfl (by simp [pe, l3, l4])) (qR2 right rfl (by simp [pe, r3, r4])) Real.sqrt
  obtain ⟨f, f1, f2, f3, f4, f5⟩ := eigen_values hmesh st1 st2
  have hpt : ∀ k, k ≤ P.secs.length → pt P k ∈ Set.Icc dmin dmax := fun k hk => by
    have := pt_in hmesh hk
    rwa [hPmin, hPmax] at this
  set m := pt P (P.matchIndex + 1) with hmdef
  have mI : m ∈ Set.Icc dmin dmax := hpt _ (by omega)
  obtain ⟨nl1, nl2⟩ := qL3 _ yl (by omega) ql
  obtain ⟨nr1, nr2⟩ := qR3 _ yr (by omega) qr
  rw [← hmdef] at nl1 nl2 nr1 nr2
  -- exact parts of the norm
  have okE := okMesh_all hfN (by linarith) (F := E) (by linarith)
  have okl := okMesh_all hfN (by linarith) (F := lam) (by linarith)
  have iL : bl (yL m, dyL m) (zL m, dzL m) = ∫ t in dmin..m, yL t * yL t := by
    have := energy_integral (sL.right okE) (energyMesh_right okE eL) le_rfl mI.1 mI.2
    rw [zL1, zL2] at this
    rw [← this]; simp only [bl]; ring
  have iR : bl (yR m, dyR m) (zR m, dzR m) = -∫ t in m..dmax, yR t * yR t := by
    have := energy_integral (sR.right okE) (energyMesh_right okE eR) mI.1 mI.2 le_rfl
    rw [zR1, zR2] at this
    rw [← this]; simp only [bl]; ring
  have cu := (heig.solves.right okl).c1
  have u_le : ∀ x ∈ Set.Icc dmin dmax, |u x| ≤ c := fun x hx => (le_sz1 _).trans (ub x hx).1
  have nearL : ∀ x ∈ Set.Icc dmin dmax, sz (α * yL x - u x, α * dyL x - du x) ≤ C3 * δ * c := fun x hx =>
    (bL x hx).1.trans (mul_le_mul_of_nonneg_left (ub dmin aI).1 (by positivity))
  have nearR : ∀ x ∈ Set.Icc dmin dmax, sz (β * yR x - u x, β * dyR x - du x) ≤ C3 * δ * c := fun x hx =>
    (bR x hx).1.trans (mul_le_mul_of_nonneg_left (ub dmax bI).1 (by positivity))
  have C3δc : C3 * δ * c ≤ c := mul_le_of_le_one_left c0.le C3δ
  have subL : Set.Icc dmin m ⊆ Set.Icc dmin dmax := Set.Icc_subset_Icc_right mI.2
  have subR : Set.Icc m dmax ⊆ Set.Icc dmin dmax := Set.Icc_subset_Icc_left mI.1
  have JL := integral_sq_near (f := fun t => α * yL t) (u := u) (a := dmin) (b := m) (c := c) (η := C3 * δ * c) mI.1 (((sL.right okE).c1.mono subL).const_mul α) (cu.mono subL) (by positivity) C3δc
    (fun x hx => u_le x (subL hx)) (fun x hx => (le_sz1 _).trans (nearL x (subL hx)))
  have JR := integral_sq_near (f := fun t => β * yR t) (u := u) (a := m) (b := dmax) (c := c) (η := C3 * δ * c) mI.2 (((sR.right okE).c1.mono subR).const_mul β) (cu.mono subR) (by positivity) C3δc
    (fun x hx => u_le x (subR hx)) (fun x hx => (le_sz1 _).trans (nearR x (subR hx)))
  have eJ : ∀ (g : ℝ → ℝ) (γ p q : ℝ), ∫ t in p..q, γ * g t * (γ * g t) = γ ^ 2 * ∫ t in p..q, g t * g t := by
    intro g γ p q
    rw [← intervalIntegral.integral_const_mul]
    congr 1; funext t; ring
  rw [eJ] at JL JR
  set A := ∫ t in dmin..m, u t * u t with hA
  set B := ∫ t in m..dmax, u t * u t with hB
  have A0 : 0 ≤ A := intervalIntegral.integral_nonneg mI.1 (fun t _ => mul_self_nonneg _)
  have B0 : 0 ≤ B := intervalIntegral.integral_nonneg mI.2 (fun t _ => mul_self_nonneg _)
  have hAB : A + B = 1 := by
    rw [← heig.norm, hA, hB]
    refine intervalIntegral.integral_add_adjacent_intervals ?_ ?_
    · exact ContinuousOn.intervalIntegrable (by rw [Set.uIcc_of_le mI.1]; exact (cu.mono subL).mul (cu.mono subL))
    · exact ContinuousOn.intervalIntegrable (by rw [Set.uIcc_of_le mI.2]; exact (cu.mono subR).mul (cu.mono subR))
  have h5 : |α ^ 2 * (yl.yE * yl.dy - yl.dyE * yl.y) - A| ≤ K * (κ + δ) := by
    rw [hK]
    exact side_norm hC1 hC3 κ0 (by linarith) (sz_nonneg _) szα hM δ0 hc nl1 nl2 (bL m mI).2.1 (bL m mI).2.2 iL JL (by linarith [mI.2])
  have h6 : |β ^ 2 * (yr.yE * yr.dy - yr.dyE * yr.y) + B| ≤ K * (κ + δ) := by
    rw [hK]
    have := side_norm (J := -B) (a := m) (b := dmax) (M := M) (δ := δ) hC1 hC3 κ0 (by linarith) (sz_nonneg _) szβ hM δ0 hc nr1 nr2 (bR m mI).2.1 (bR m mI).2.2 iR (by
      rw [show β ^ 2 * (-∫ t in m..dmax, yR t * yR t) - -B = -(β ^ 2 * (∫ t in m..dmax, yR t * yR t) - B) by ring, abs_neg]; exact JR) (by linarith [mI.1])
    rwa [sub_neg_eq_add] at this
  -- the values at the matching point
  have scaled : ∀ (γ s : ℝ) (w : Y ℝ) (yv uv : ℝ × ℝ), |γ| * s ≤ c → sz (pr w - yv) ≤ C1 * κ * s → sz (γ • yv - uv) ≤ C3 * δ * c → 
      |γ| * sz (pr w - yv) ≤ C1 * κ * c ∧ sz (γ • pr w - uv) ≤ K * (κ + δ) := by
    intro γ s w yv uv h1 h2 h3
    have k1 : |γ| * sz (pr w - yv) ≤ C1 * κ * c := by
      have q1 := mul_le_mul_of_nonneg_left h2 (abs_nonneg γ)
      have q2 := mul_le_mul_of_nonneg_left h1 (show 0 ≤ C1 * κ by positivity)
      linarith only [q1, q2]
    refine ⟨k1, ?_⟩
    have k2 := sz_tri (γ • pr w) (γ • yv) uv
    rw [← smul_sub, sz_smul] at k2
    have k3 : C1 * c * κ ≤ K * κ := mul_le_mul_of_nonneg_right KC1 κ0
    have k4 : C3 * c * δ ≤ K * δ := mul_le_mul_of_nonneg_right KC3 δ0
    linarith only [k1, k2, k3, k4, h3]
  have vL := (scaled α _ yl (yL m, dyL m) (u m, du m) szα nl1 (nearL m mI)).2
  have vR := (scaled β _ yr (yR m, dyR m) (u m, du m) szβ nr1 (nearR m mI)).2
  obtain ⟨ς, kL, kR, hς, nkL, nkR, dkL, dkR⟩ := norm_alg hc hα hβ ((le_sz1 _).trans vL) ((le_sz2 _).trans vL) ((le_sz1 _).trans vR) ((le_sz2 _).trans vR) (ub m mI).2 hη34 A0 B0 hAB h5 h6
  rw [hP] at f1
  refine ⟨f, ς, f1, f2, f3.trans hPmin, f4.trans hPmax, hς, ?_⟩
  intro x hx d hd0 hd1 hsk v hval
  rw [← hδ]
  obtain ⟨ρ, hρ⟩ : ∃ ρ, ρ = H ^ 15 + ε + d := ⟨_, rfl⟩
  have ρ0 : 0 ≤ ρ := by rw [hρ]; positivity
  have κρ : κ ≤ ρ := by
    rw [hκ, hρ]
    have := pow_le_pow_of_le_one hH0.le hf.small (show 15 ≤ 16 by norm_num)
    linarith
  have hcmp : 42 * c * (K * (κ + δ)) ≤ 2 := by linarith only [hη34]
  have fin : C2 * (3 * (C1 * κ * c) + ρ * (6 * c)) + (3 * (C3 * δ * c) + 42 * c * (K * (κ + δ)) * c) ≤
      (34 * c * K + (3 * C2 * C1 * c + 6 * c * C2 + 3 * C3 * c + 42 * c ^ 2 * K)) * (ρ + δ) := by
    have p1 : 3 * C2 * C1 * c * κ ≤ 3 * C2 * C1 * c * ρ := mul_le_mul_of_nonneg_left κρ (by positivity)
    have p2 : 42 * c ^ 2 * K * κ ≤ 42 * c ^ 2 * K * ρ := mul_le_mul_of_nonneg_left κρ (by positivity)
    have p3 : 0 ≤ 34 * c * K * (ρ + δ) := by positivity
    have p4 : 0 ≤ (3 * C2 * C1 * c + 6 * c * C2) * δ := by positivity
    have p5 : 0 ≤ 3 * C3 * c * ρ := by positivity
    linarith only [p1, p2, p3, p4, p5]
  -- one step, scaled
  have val : ∀ i (hi : i < P.secs.length), (P.secs[i]).min ≤ x → x ≤ (P.secs[i]).max → ∀ a, a = (P.secs[i]).min ∨ a = (P.secs[i]).max → a ∈ Set.Icc dmin dmax →
      ∀ (γ k s : ℝ) (y dy : ℝ → ℝ) (w : Y ℝ), SolvesMesh W E r.sectors y dy → |γ| * s ≤ c → (∀ t ∈ Set.Icc dmin dmax, sz (γ * y t - u t, γ * dy t - du t) ≤ C3 * δ * c) →
        |k - 1| ≤ 42 * c * (K * (κ + δ)) → sz (pr w - (y a, dy a)) ≤ C1 * κ * s →
        sz (pr ((P.secs[i]).propagate E true (w.smul (ς * γ * k)) a x).1 - ς • (u x, du x)) ≤ C2 * (3 * (C1 * κ * c) + ρ * (6 * c)) + (3 * (C3 * δ * c) + 42 * c * (K * (κ + δ)) * c) := by
    intro i hi h1 h2 a ha haI γ k s y dy w hy hγ hnear hk hw
    have hskx : Skips eps d (P.secs[i]).min (P.secs[i]).max x := by
      have := hsk ((P.secs[i]).toSec) (by rw [← hPm, ← mesh_get P i hi]; exact List.getElem_mem _)
      exact this
    have ev := inside eps σ τ ε d eta vs W dmin dmax H E r _ _ hfN he hv hε hε1 hd0 hd1 hEM (hy.comb hy (ς * γ * k) 0) P hP i hi x h1 h2 hskx a ha (w.smul (ς * γ * k))
    have e1 : ∀ t, (ς * γ * k * y t + 0 * y t, ς * γ * k * dy t + 0 * dy t) = (ς * γ * k) • (y t, dy t) := fun t => by ext <;> simp
    have e2 : pr (w.smul (ς * γ * k)) = (ς * γ * k) • pr w := by
      simp only [pr, Y.smul, Prod.smul_mk, smul_eq_mul]
      ext <;> simp <;> ring
    rw [e1, e1, e2, ← hρ] at ev
    refine value_near hς C20.le ρ0 hk hcmp ev (scaled γ s w (y a, dy a) (u a, du a) hγ hw (hnear a haI)).1 ?_ (hnear x hx) (ub x hx).1
    have k1 := sz_le_add (γ • (y a, dy a)) (u a, du a)
    have k2 := hnear a haI
    have k3 := (ub a haI).1
    change sz (γ • (y a, dy a) - (u a, du a)) ≤ _ at k2
    linarith only [k1, k2, k3, C3δc]
  have main : sz (v - ς • (u x, du x)) ≤ (34 * c * K + (3 * C2 * C1 * c + 6 * c * C2 + 3 * C3 * c + 42 * c ^ 2 * K)) * (ρ + δ) := by
    obtain ⟨i, hi, h1, h2, h3⟩ := f5 x (by rw [hPmin]; exact hx.1) (by rw [hPmax]; exact hx.2) v hval
    have step : ∀ j (hj : j < steps.length) a, a = pt P j → (a = (P.secs[i]).min ∨ a = (P.secs[i]).max) → v = pr ((P.secs[i]).propagate E true steps[j] a x).1 →
        sz (v - ς • (u x, du x)) ≤ (34 * c * K + (3 * C2 * C1 * c + 6 * c * C2 + 3 * C3 * c + 42 * c ^ 2 * K)) * (ρ + δ) := by
      intro j hj a ha hend hve
      rw [hve]
      have haI : a ∈ Set.Icc dmin dmax := by rw [ha]; exact hpt j (by omega)
      refine le_trans ?_ fin
      rcases st3 j hj with ⟨w, hw, e⟩ | ⟨w, hw, e⟩
      · rw [e, nkL]
        have := (qL3 j w (by omega) hw).1
        rw [← ha] at this
        exact val i hi h1 h2 a hend haI α kL _ yL dyL w sL szα nearL dkL this
      · rw [e, nkR]
        have := (qR3 j w (by omega) hw).1
        rw [← ha] at this
        exact val i hi h1 h2 a hend haI β kR _ yR dyR w sR szβ nearR dkR this
    rcases h3 with ⟨hj, hve⟩ | ⟨hj, hve⟩
    · exact step i hj _ (pt_min hmesh hi) (.inl rfl) hve
    · exact step (i + 1) hj _ (pt_max P hi) (.inr rfl) hve
  rw [← hρ]
  exact ⟨(le_sz1 _).trans main, (le_sz2 _).trans main⟩

/-- **C98**: at an energy `E` near an eigenvalue `lam`, `eigenfunction` returns an object whose values and derivatives, evaluated one point at a time or as an array, are
within a constant times `H^15 + ε + d + |E - lam|` of the exact normalised eigenfunction `u` (up to its sign, the same for all points), at every point of
the domain. The constant depends only on the bound `M` for the potential, the domain and the eigenvalue, not on the mesh; `d` accounts for the steps of at most `eps` that are
skipped. -/
theorem C98_eigenfunction_converges (M : ℝ) (hM : 1 ≤ M) : ∃ C : ℝ, 1 ≤ C ∧ ∀ (eps ε : ℝ) (eta : ℕ → ℝ → ℕ → ℝ) (vs : Sec ℝ → ℕ → ℝ) (W : Sec ℝ → ℝ → ℝ)
    (dmin dmax H lam E : ℝ) (r : BuildResult ℝ) (left right : Y ℝ) (u du : ℝ → ℝ),
    FitMesh eps M H W dmin dmax r.sectors → AccurateTo ε W r.sectors eta vs → dmax - dmin ≤ M → 1 / M ≤ dmax - dmin → |lam| ≤ M →
    r.matchIndex < r.sectors.length → (left.y ≠ 0 ∨ left.dy ≠ 0) → (right.y ≠ 0 ∨ right.dy ≠ 0) →
    left.yE = 0 → left.dyE = 0 → right.yE = 0 → right.dyE = 0 →
    IsEigenfunction W r.sectors dmin dmax (left.y, left.dy) (right.y, right.dy) lam u du →
    C * (H ^ 16 + ε + |E - lam|) ≤ 1 →
    ∃ f ς, eigenfunction Real.sqrt (constructOf eps eta vs dmin dmax r) E left right = .ok f ∧ (ς = 1 ∨ ς = -1) ∧
      (∀ x ∈ Set.Icc dmin dmax, ∀ d, 0 ≤ d → d ≤ 1 → (∀ s ∈ r.sectors, Skips eps d s.min s.max x) → ∃ v, f.eval x = .ok v ∧
        |v.1 - ς * u x| ≤ C * (H ^ 15 + ε + d + |E - lam|) ∧ |v.2 - ς * du x| ≤ C * (H ^ 15 + ε + d + |E - lam|)) ∧
      (∀ xs : List ℝ, (∀ x ∈ xs, x ∈ Set.Icc dmin dmax) → ∀ d, 0 ≤ d → d ≤ 1 → (∀ x ∈ xs, ∀ s ∈ r.sectors, Skips eps d s.min s.max x) → ∃ ys, f.evalArray xs = .ok ys ∧
        List.Forall₂ (fun x v => |v.1 - ς * u x| ≤ C * (H ^ 15 + ε + d + |E - lam|) ∧ |v.2 - ς * du x| ≤ C * (H ^ 15 + ε + d + |E - lam|)) xs ys) ∧
      (∀ x, x < dmin ∨ dmax < x → f.eval x = .ok 0) := by
  obtain ⟨C, hC, key⟩ := eigen_values_near M hM
  refine ⟨C, hC, ?_⟩
  intro eps ε eta vs W dmin dmax H lam E r left right u du hf ha hd hd' hlam hm hl hr l3 l4 r3 r4 heig hκ
  obtain ⟨f, ς, e, wf, fd, fd', hς, hv⟩ := key eps ε eta vs W dmin dmax H lam E r left right u du hf ha hd hd' hlam hm hl hr l3 l4 r3 r4 heig hκ
  refine ⟨f, ς, e, hς, ?_, ?_, ?_⟩
  · intro x hx d d0 d1 hs
    obtain ⟨v, ev, hv'⟩ := eval_value wf x (by simp)
    exact ⟨v, ev, hv x hx d d0 d1 hs v hv'⟩
  · intro xs hxs d d0 d1 hs
    obtain ⟨⟨ys, ey, hy⟩, -⟩ := C09_array_evaluation wf xs (fun x _ => by simp)
    refine ⟨ys, ey, ?_⟩
    clear ey
    induction hy with
    | nil => exact .nil
    | cons hp _ ih =>
      exact .cons (hv _ (hxs _ (by simp)) d d0 d1 (hs _ (by simp)) _ hp) (ih (fun x hx => hxs x (by simp [hx])) (fun x hx => hs x (by simp [hx])))
  · intro x hx
    unfold EigenObj.eval
    have : f.outside x = true := by
      unfold EigenObj.outside
      rw [fd, fd']
      simpa using hx
    simp [this]

/-- **C98**: every eigenvalue has a normalised eigenfunction, so that the theorem above applies to every eigenvalue. -/
theorem C98_eigenfunction_exists {eps M H : ℝ} (hM : 1 ≤ M) {W : Sec ℝ → ℝ → ℝ} {dmin dmax lam : ℝ} {secs : List (Sec ℝ)} {L R : ℝ × ℝ} (hf : FitMesh eps M H W dmin dmax secs)
    (hd : dmax - dmin ≤ M) (hd' : 1 / M ≤ dmax - dmin) (hlam : |lam| ≤ M) (h : IsEigenvalue W secs dmin dmax L R lam) :
    ∃ u du, IsEigenfunction W secs dmin dmax L R lam u du := by
  obtain ⟨y, dy, hy, ⟨x, hx, hne⟩, hl, hr⟩ := h
  have ok := fit_ok hf hd hd'
  have h1 : |lam| ≤ M + 1 := by linarith
  have om := ok.okMesh hM h1
  have ov := ok.overlap hM h1 h1 hy hy rfl rfl (by
    rw [sub_self, abs_zero, zero_mul]
    have := (ell_facts hM).1
    positivity)
  have e0 := (ell_facts hM).1
  have sp : 0 < sz (y dmin, dy dmin) := by
    refine lt_of_le_of_ne (sz_nonneg _) fun h0 => hne ?_
    exact (mesh_zero (by linarith) om hy (Set.left_mem_Icc.mpr (chn_range ok.chn ok.pos).1) h0.symm hx).1
  obtain ⟨I, hI⟩ : ∃ I, I = ∫ t in dmin..dmax, y t * y t := ⟨_, rfl⟩
  rw [← hI] at ov
  have Ip : 0 < I := lt_of_lt_of_le (by positivity) ov
  have sI : 0 < Real.sqrt I := Real.sqrt_pos.mpr Ip
  refine ⟨fun x => (Real.sqrt I)⁻¹ * y x, fun x => (Real.sqrt I)⁻¹ * dy x, ?_, ?_, ?_, ?_⟩
  · intro s hs
    refine ⟨fun x hx => ((hy s hs).d1 x hx).const_mul _, fun x hx => ?_⟩
    exact (((hy s hs).d2 x hx).const_mul _).congr_deriv (by ring)
  · simp only [mul_assoc, hl]
  · simp only [mul_assoc, hr]
  · have : ∀ t, (Real.sqrt I)⁻¹ * y t * ((Real.sqrt I)⁻¹ * y t) = I⁻¹ * (y t * y t) := fun t => by
      rw [mul_mul_mul_comm, ← mul_inv, Real.mul_self_sqrt Ip.le]
    simp only [this]
    rw [intervalIntegral.integral_const_mul, ← hI, inv_mul_cancel₀ Ip.ne']

/-- **C98**, with Newton's iteration: starting near an eigenvalue, Newton polishing followed by `eigenfunction` at the returned energy gives the exact normalised
eigenfunction to within a constant times `tol² + H^15 + ε + d` (and `2^(-2^20)`, should all twenty Newton steps be needed). -/
theorem C98_polished_eigenfunction (M : ℝ) (hM : 1 ≤ M) : ∃ C : ℝ, 1 ≤ C ∧ ∀ (eps ε : ℝ) (eta : ℕ → ℝ → ℕ → ℝ) (vs : Sec ℝ → ℕ → ℝ) (W : Sec ℝ → ℝ → ℝ)
    (dmin dmax H lam pi : ℝ) (r : BuildResult ℝ) (left right : Y ℝ) (u du : ℝ → ℝ),
    FitMesh eps M H W dmin dmax r.sectors → AccurateTo ε W r.sectors eta vs → dmax - dmin ≤ M → 1 / M ≤ dmax - dmin → |lam| ≤ M →
    r.matchIndex < r.sectors.length → (left.y ≠ 0 ∨ left.dy ≠ 0) → (right.y ≠ 0 ∨ right.dy ≠ 0) →
    left.yE = 0 → left.dyE = 0 → right.yE = 0 → right.dyE = 0 →
    IsEigenfunction W r.sectors dmin dmax (left.y, left.dy) (right.y, right.dy) lam u du →
    C * (H ^ 16 + ε) ≤ 1 →
    ∃ me : ℝ → ℝ × ℝ × ℝ, (∀ E, (constructOf eps eta vs dmin dmax r).matchingError pi E left right true = .ok (me E)) ∧
      ∀ E tol, |E - lam| ≤ 1 / C → ∃ idx E' f ς, newton me pi tol E = .ok (idx, E') ∧
        eigenfunction Real.sqrt (constructOf eps eta vs dmin dmax r) E' left right = .ok f ∧ (ς = 1 ∨ ς = -1) ∧
        ∀ x ∈ Set.Icc dmin dmax, ∀ d, 0 ≤ d → d ≤ 1 → (∀ s ∈ r.sectors, Skips eps d s.min s.max x) → ∃ v, f.eval x = .ok v ∧
          |v.1 - ς * u x| ≤ C * (tol ^ 2 + H ^ 15 + ε + d + (1 / 2) ^ 2 ^ 20) ∧ |v.2 - ς * du x| ≤ C * (tol ^ 2 + H ^ 15 + ε + d + (1 / 2) ^ 2 ^ 20) := by
  obtain ⟨C1, hC1, key1⟩ := C98_eigenfunction_converges M hM
  obtain ⟨C2, hC2, key2⟩ := C88_newton_converges M hM
  have alg : ∀ C κ e : ℝ, C = C1 * (2 + 2 * C2) → 0 ≤ κ → C * κ ≤ 1 → e ≤ 1 / C + C2 * κ → C1 * (κ + e) ≤ 1 := by
    intro C κ e hC h0 h1 h2
    have Cp : 0 < C := by rw [hC]; positivity
    have h3 : C1 * (κ + e) ≤ C1 * (κ + (1 / C + C2 * κ)) := mul_le_mul_of_nonneg_left (by linarith) (by linarith)
    have h4 : C1 * (2 * (1 / C)) ≤ 1 / 2 := by
      rw [hC]; field_simp; nlinarith
    have h5 : C1 * ((1 + C2) * κ) = C * κ / 2 := by rw [hC]; ring
    nlinarith
  have alg2 : ∀ C h15 h16 ε d t e q : ℝ, C = C1 * (2 + 2 * C2) → 0 ≤ h15 → h16 ≤ h15 → 0 ≤ ε → 0 ≤ d → 0 ≤ t → 0 ≤ q → e ≤ C2 * (t + h16 + ε) + q →
      C1 * (h15 + ε + d + e) ≤ C * (t + h15 + ε + d + q) := by
    intro C h15 h16 ε d t e q hC a1 a2 a3 a4 a5 a6 a7
    have h3 : C1 * (h15 + ε + d + e) ≤ C1 * (h15 + ε + d + (C2 * (t + h15 + ε) + q)) := by
      refine mul_le_mul_of_nonneg_left ?_ (by linarith)
      have : C2 * h16 ≤ C2 * h15 := mul_le_mul_of_nonneg_left a2 (by linarith)
      linarith
    refine h3.trans ?_
    rw [hC, mul_assoc]
    refine mul_le_mul_of_nonneg_left ?_ (by linarith)
    have b1 : 0 ≤ C2 * t := by positivity
    have b2 : 0 ≤ C2 * h15 := by positivity
    have b3 : 0 ≤ C2 * ε := by positivity
    have b4 : 0 ≤ C2 * d := by positivity
    have b5 : 0 ≤ C2 * q := by positivity
    nlinarith
  obtain ⟨C, hC⟩ : ∃ C, C = C1 * (2 + 2 * C2) := ⟨_, rfl⟩
  have C2C : C2 ≤ C := by rw [hC]; nlinarith
  refine ⟨C, by linarith, ?_⟩
  intro eps ε eta vs W dmin dmax H lam pi r left right u du hf ha hd hd' hlam hm hl hr l3 l4 r3 r4 heig hκ
  have hH0 := fit_pos hf
  have hε0 : 0 ≤ ε := by
    obtain ⟨-, σ, τ, he, hv, hε⟩ := ha
    have h1 := (hv _ (List.getElem_mem hm)).nonneg
    have h2 := mul_nonneg (Nat.cast_nonneg (α := ℝ) r.sectors.length) he.nonneg
    linarith
  have κ0 : 0 ≤ H ^ 16 + ε := by positivity
  have eig : IsEigenvalue W r.sectors dmin dmax (left.y, left.dy) (right.y, right.dy) lam := by
    refine ⟨u, du, heig.solves, ?_, heig.left, heig.right⟩
    by_contra hn
    push Not at hn
    have : ∫ t in dmin..dmax, u t * u t = 0 := by
      rw [intervalIntegral.integral_congr (g := fun _ => (0 : ℝ))]
      · simp
      · intro t ht
        rw [Set.uIcc_of_le (chn_range (fit_ok hf hd hd').chn (fit_ok hf hd hd').pos).1] at ht
        simp [hn t ht]
    rw [heig.norm] at this
    norm_num at this
  obtain ⟨me, e1, e2⟩ := key2 eps ε eta vs W dmin dmax H lam pi r true left right hf ha hd hd' hlam hm hl hr l3 l4 r3 r4 eig
    (by simp only [if_true]; exact (mul_le_mul_of_nonneg_right C2C κ0).trans hκ)
  simp only [if_true] at e2
  refine ⟨me, e1, fun E tol hE => ?_⟩
  obtain ⟨-, f2, f3⟩ := e2 E (hE.trans (one_div_le_one_div_of_le (by linarith) C2C))
  obtain ⟨idx, E', g1, g2⟩ := f3 tol
  obtain ⟨m, -, -, em, -⟩ := C24_newton me pi tol E idx E' g1
  have g3 := f2 m
  rw [← em] at g3
  have g4 := alg C (H ^ 16 + ε) |E' - lam| hC κ0 hκ (g3.trans (by linarith only [hE]))
  obtain ⟨f, ς, k1, k2, k3, -⟩ := key1 eps ε eta vs W dmin dmax H lam E' r left right u du hf ha hd hd' hlam hm hl hr l3 l4 r3 r4 heig g4
  refine ⟨idx, E', f, ς, g1, k1, k2, fun x hx d d0 d1 hs => ?_⟩
  obtain ⟨v, v1, v2, v3⟩ := k3 x hx d d0 d1 hs
  have fin := alg2 C (H ^ 15) (H ^ 16) ε d (tol ^ 2) |E' - lam| ((1 / 2) ^ 2 ^ 20) hC (by positivity) (pow_le_pow_of_le_one hH0.le hf.small (by norm_num)) hε0 d0 (sq_nonneg _)
    (by positivity) g2
  exact ⟨v, v1, v2.trans fin, v3.trans fin⟩

/-- Non-vacuity: `V = x²` on `[-1, 1]`, eigenvalue `1`, exact ingredients, on the uniform mesh of `n` sectors, for every large `n` (`C98_polished_eigenfunction` has the
same hypotheses). -/
example : ∃ C : ℝ, 1 ≤ C ∧ ∀ (n : ℕ) (cmp : Sec ℝ → Sec ℝ → Bool), 2 * C ≤ n → ∃ (r : BuildResult ℝ) (u du : ℝ → ℝ), uniformBuild cmp n (-1) 1 = .ok r ∧
    IsEigenfunction (fun _ x => x ^ 2) r.sectors (-1) 1 (1, 1) (1, -1) 1 u du ∧
    ∃ f ς, eigenfunction Real.sqrt (constructOf 0 etaExact (exactVs fun x => x ^ 2) (-1) 1 r) 1 ⟨1, 1, 0, 0⟩ ⟨1, -1, 0, 0⟩ = .ok f ∧ (ς = 1 ∨ ς = -1) ∧
      ∀ x ∈ Set.Icc (-1 : ℝ) 1, ∃ v, f.eval x = .ok v ∧ |v.1 - ς * u x| ≤ C * ((1 - -1) / n) ^ 15 ∧ |v.2 - ς * du x| ≤ C * ((1 - -1) / n) ^ 15 := by
  obtain ⟨C, hC, key⟩ := C98_eigenfunction_converges 2 (by norm_num)
  refine ⟨C, hC, fun n cmp hn => ?_⟩
  obtain ⟨h1, h2, h3, h4⟩ := inv_small hC hn
  obtain ⟨r, e1, hlen, hm, hf, hc, hp, hne⟩ := uniform_fit cmp h1 le_rfl osc_smooth h2 h3
  have hv : CoeffsWithin 0 (fun _ x => x ^ 2) r.sectors (exactVs fun x => x ^ 2) := coeffs_on_mesh (exact_coeffs _ _ _ _) hf hc hp
  have acc : AccurateTo 0 (fun _ x => x ^ 2) r.sectors etaExact (exactVs fun x => x ^ 2) := ⟨by norm_num, 0, 0, etaWithin_exact, hv, by simp⟩
  obtain ⟨u, du, hu⟩ := C98_eigenfunction_exists (by norm_num) hf (by norm_num) (by norm_num) (by norm_num) ((isEigenvalue_iff hc hp hne _ _ _).mpr osc_eigen)
  obtain ⟨f, ς, k1, k2, k3, -⟩ := key 0 0 etaExact (exactVs fun x => x ^ 2) (fun _ x => x ^ 2) (-1) 1 ((1 - -1) / n) 1 1 r ⟨1, 1, 0, 0⟩ ⟨1, -1, 0, 0⟩ u du hf
    acc (by norm_num) (by norm_num) (by norm_num) hm (by norm_num) (by norm_num) rfl rfl rfl rfl hu (by simpa using h4)
  refine ⟨r, u, du, e1, hu, f, ς, k1, k2, fun x hx => ?_⟩
  obtain ⟨v, v1, v2, v3⟩ := k3 x hx 0 le_rfl zero_le_one (fun s hs a b => ⟨fun c => c, fun c => c⟩)
  refine ⟨v, v1, ?_, ?_⟩
  · simpa using v2
  · simpa using v3

end Verif.Solver
