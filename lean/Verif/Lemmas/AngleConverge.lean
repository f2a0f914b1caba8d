import Verif.Lemmas.AngleChain
import Verif.Lemmas.Converge
import Verif.Lemmas.EnergyMesh
import Verif.Lemmas.EigenNear
import Verif.Props.Index

/-!
# Convergence of the angle of `propagate`
-/
namespace Verif.Solver
open Verif Verif.Prufer Verif.YT Verif.CalcT Verif.Mesh Verif.Propag Verif.Formulas Verif.Legendre Verif.Spec
open Real (pi)

/-- The mean of the potential a sector works with. -/
theorem oriented_mean (W : ℝ → ℝ) (s : Sec ℝ) (h : s.min < s.max) :
    (s.max - s.min) * legendreCoeff (oriented W s) s.min s.max 0 = ∫ x in s.min..s.max, W x := by
  rw [legendreCoeff_zero_mean h]
  unfold oriented
  split
  · rw [intervalIntegral.integral_comp_sub_left (fun x => W x) (s.min + s.max)]
    congr 1 <;> ring
  · rfl

/-- The coefficient `vs[0]` is near the mean. -/
theorem coeff_zero_bound {M τ : ℝ} {W : ℝ → ℝ} {s : Sec ℝ} {v : ℕ → ℝ} (h : s.min < s.max) (hW : SmoothOn M W s.min s.max)
    (hv : CoeffWithin τ (oriented W s) s.min s.max v) :
    |v 0| ≤ M + τ ∧ |(s.max - s.min) * v 0 - ∫ x in s.min..s.max, W x| ≤ (s.max - s.min) * τ := by
  have h0 : 0 < s.max - s.min := by linarith
  have h1 := hv.near 0 (by norm_num)
  rw [pow_zero, mul_one] at h1
  have h2 := oriented_mean W s h
  have h3 : |∫ x in s.min..s.max, W x| ≤ M * |s.max - s.min| := by
    have := intervalIntegral.norm_integral_le_of_norm_le_const (a := s.min) (b := s.max) (f := W) (C := M) (by
      intro x hx
      rw [Set.uIoc_of_le h.le] at hx
      exact hW.bound ⟨hx.1.le, hx.2⟩)
    exact this
  rw [abs_of_pos h0, ← h2, abs_mul, abs_of_pos h0, mul_comm] at h3
  have h4 := le_of_mul_le_mul_right h3 h0
  constructor
  · have := abs_sub_abs_le_abs_sub (v 0) (legendreCoeff (oriented W s) s.min s.max 0)
    linarith
  · rw [← h2, ← mul_sub, abs_mul, abs_of_pos h0]
    exact mul_le_mul_of_nonneg_left h1 h0.le

/-- **One sector with its angle.** -/
theorem sector_angle (M : ℝ) (hM : 1 ≤ M) : ∃ C : ℝ, 1 ≤ C ∧ ∀ (eps σ τ : ℝ) (eta : ℕ → ℝ → ℕ → ℝ) (v : ℕ → ℝ) (W : ℝ → ℝ) (v0M E : ℝ) (s : Sec ℝ) (useH : Bool) (a b : ℝ),
    EtaWithin σ eta → σ ≤ 1 → τ ≤ 1 → 0 ≤ eps → eps < s.max - s.min → s.max - s.min ≤ 1 → SmoothOn M W s.min s.max → CoeffWithin τ (oriented W s) s.min s.max v → |E| ≤ M →
    s.dir ≠ .none → (a ≤ s.min ∨ s.max ≤ a) → (b ≤ s.min ∨ s.max ≤ b) → E - v0M ≤ 3 * M →
    C * (s.max - s.min) ≤ 1 → C * ((s.max - s.min) * τ + σ) ≤ s.max - s.min →
    (v 0 < E → C * ((s.max - s.min) ^ (ord useH + 1) + (s.max - s.min) * τ + σ) ≤ (s.max - s.min) * (E - v 0)) →
    ∀ (y : Y ℝ) (θ : ℝ), 0 < sz (pr y) → IsAngle θ (scaling v0M E * y.y) y.dy →
      IsAngle (θ + ((sectorOf eps eta v v0M s).propagate E useH y a b).2) (scaling v0M E * ((sectorOf eps eta v v0M s).propagate E useH y a b).1.y)
        ((sectorOf eps eta v v0M s).propagate E useH y a b).1.dy ∧
      |((sectorOf eps eta v v0M s).propagate E useH y a b).2| ≤ 1 / 4 := by
  obtain ⟨C1, hC1, near⟩ := sector_near M hM
  refine ⟨64 * C1 + 32768 * M ^ 2 * C1 + 768 * M ^ 2 + 1, by nlinarith [sq_nonneg M], ?_⟩
  intro eps σ τ eta v W v0M E s useH a b he hσ1 hτ1 heps hw hw1 hW hv hE hd ha hb hvM hC2 hC3 hC4 y θ hy hθ
  have hσ0 := he.nonneg
  have hτ0 := hv.nonneg
  set h := s.max - s.min with hh
  have h0 : 0 < h := by linarith
  have hlt : s.min < s.max := by linarith
  set C := 64 * C1 + 32768 * M ^ 2 * C1 + 768 * M ^ 2 + 1 with hC
  have hM2 : 0 ≤ M ^ 2 := by positivity
  have q1 : 0 ≤ 32768 * M ^ 2 * C1 := by positivity
  obtain ⟨Sm, hSm, -, hn⟩ := near eps σ τ 1 eta v W v0M E s useH a b he hσ1 hτ1 zero_le_one le_rfl
    (fun _ _ => ⟨fun h => h.trans (by linarith), fun h => h.trans (by linarith)⟩) (fun _ _ => ⟨fun h => h.trans (by linarith), fun h => h.trans (by linarith)⟩)
    heps hw hw1 hW hv hE hd
  have hn := hn ha hb
  have hcont := hW.continuousOn
  have q := pot_bound hW hE
  obtain ⟨v1, v2⟩ := coeff_zero_bound hlt hW hv
  rw [abs_le] at v1 v2 hE
  have hps := propagate_angle (s := sectorOf eps eta v v0M s) rfl hlt hd (a := a) (b := b) E useH y
  have hsk := (propagate_cases (sectorOf eps eta v v0M s) E useH a b y).1
  -- the local error
  set κ := h ^ (ord useH + 1) + h * τ + σ with hκ
  have κ0 : 0 ≤ κ := by positivity
  set e1 := C1 * κ with he1
  have e10 : 0 ≤ e1 := by positivity
  have e1h : 32 * e1 ≤ h := by
    have p1 : h ^ (ord useH + 1) ≤ h ^ 2 := pow_le_pow_of_le_one h0.le hw1 (by cases useH <;> norm_num [ord])
    have p2 : C1 * (64 * h) ≤ 1 := by
      have := mul_le_mul_of_nonneg_right (show 64 * C1 ≤ C by rw [hC]; linarith) h0.le
      linarith
    have p3 : 64 * C1 * (h * τ + σ) ≤ h := (mul_le_mul_of_nonneg_right (show 64 * C1 ≤ C by rw [hC]; linarith) (by positivity)).trans hC3
    have p4 : C1 * (64 * h) * h ≤ 1 * h := mul_le_mul_of_nonneg_right p2 h0.le
    have p5 : C1 * h ^ (ord useH + 1) ≤ C1 * h ^ 2 := mul_le_mul_of_nonneg_left p1 (by linarith)
    rw [he1, hκ]
    nlinarith
  have hSK : 128 * (3 * M * (2 * M * h)) ≤ 1 := by
    have := mul_le_mul_of_nonneg_right (show 768 * M ^ 2 ≤ C by rw [hC]; linarith) h0.le
    linarith
  have hB : v 0 < E → 4096 * (2 * M) ^ 2 * (2 * e1) ≤ h * E - ∫ x in s.min..s.max, W x := by
    intro hvE
    have p1 : h * τ ≤ κ := by rw [hκ]; have : 0 ≤ h ^ (ord useH + 1) := by positivity
                              linarith
    have p2 : (32768 * M ^ 2 * C1 + 1) * κ ≤ C * κ := mul_le_mul_of_nonneg_right (by rw [hC]; linarith) κ0
    have p3 := hC4 hvE
    rw [he1]
    linarith [v2.2, v2.1]
  have hKh : 2 * (2 * M * h) ≤ 1 := by
    have : 2 * M * h ≤ 3 * M * (2 * M * h) := by
      have : 0 ≤ 2 * M * h := by positivity
      nlinarith
    linarith
  have mA : s.min ∈ Set.Icc s.min s.max := ⟨le_rfl, hlt.le⟩
  have mB : s.max ∈ Set.Icc s.min s.max := ⟨hlt.le, le_rfl⟩
  have hv0 : E - v 0 ≤ 2 * (2 * M) := by linarith [v1.1]
  rcases ha with ha | ha <;> rcases hb with hb | hb
  · rw [hsk (Or.inr ⟨ha, hb⟩)]
    exact ⟨by simpa using hθ, by norm_num⟩
  · obtain ⟨z, dz, hz, z1, z2⟩ := exists_solution_at (E := E) hcont mA (pr y)
    rw [cl_low ha, cl_high hlt.le hb, ← hh, abs_of_pos h0, show (h ^ ord useH + τ) * h + σ = κ by rw [hκ]; ring] at hn
    have e0 : (z s.min, dz s.min) = pr y := by rw [z1, z2]
    have n1 := hn z dz hz
    rw [e0, ← hSm] at n1
    rw [← e0] at hy
    obtain ⟨r1, r2, r3⟩ := angle_step (S := 3 * M) (yl := y) (yr := ((sectorOf eps eta v v0M s).propagate E useH y a b).1) (e := 2 * e1) (v0M := v0M) (v0 := v 0) (by linarith : 1 ≤ 2 * M)
      hcont q hz (by linarith) hSK hlt (by linarith) (by linarith) hy (by rw [e0, sub_self]; simp [sz]; positivity)
      (by rw [e0]; exact n1.trans (mul_le_mul_of_nonneg_right (by linarith) (sz_nonneg _))) hvM hv0 hB
    have hp := hps.1 ha hb
    have hp' : ((sectorOf eps eta v v0M s).propagate E useH y a b).2 = pruferHelper v0M (v 0) E (s.max - s.min) y ((sectorOf eps eta v v0M s).propagate E useH y a b).1 := hp
    rw [hp', r2]
    exact ⟨hθ.rot r1, r3⟩
  · obtain ⟨z, dz, hz, z1, z2⟩ := exists_solution_at (E := E) hcont mB (pr y)
    rw [cl_low hb, cl_high hlt.le ha, abs_sub_comm, ← hh, abs_of_pos h0, show (h ^ ord useH + τ) * h + σ = κ by rw [hκ]; ring] at hn
    have e0 : (z s.max, dz s.max) = pr y := by rw [z1, z2]
    have n1 := hn z dz hz
    have gr := short_bound (by linarith : 1 ≤ 2 * M) q hz (by linarith) mB
    rw [e0] at gr
    rw [e0, ← hSm] at n1
    have hN : 0 < sz (z s.min, dz s.min) := by linarith
    have n2 : sz (pr ((sectorOf eps eta v v0M s).propagate E useH y a b).1 - (z s.min, dz s.min)) ≤ 2 * e1 * sz (z s.min, dz s.min) := by
      have := mul_le_mul_of_nonneg_left gr e10
      linarith
    obtain ⟨r1, r2, r3⟩ := angle_step (S := 3 * M) (yl := ((sectorOf eps eta v v0M s).propagate E useH y a b).1) (yr := y) (e := 2 * e1) (v0M := v0M) (v0 := v 0) (by linarith : 1 ≤ 2 * M)
      hcont q hz (by linarith) hSK hlt (by linarith) (by linarith) hN n2 (by rw [e0, sub_self]; simp [sz]; positivity) hvM hv0 hB
    have hp := hps.2 ha hb
    have hp' : ((sectorOf eps eta v v0M s).propagate E useH y a b).2 = -pruferHelper v0M (v 0) E (s.max - s.min) ((sectorOf eps eta v v0M s).propagate E useH y a b).1 y := hp
    rw [hp', r2, abs_neg, ← rot_neg]
    refine ⟨hθ.rot ?_, r3⟩
    linarith
  · rw [hsk (Or.inl ⟨ha, hb⟩)]
    exact ⟨by simpa using hθ, by norm_num⟩

/-- positions of solutions -/
theorem mesh_nonzero {M : ℝ} (hM : 1 ≤ M) {eps H E : ℝ} {W : Sec ℝ → ℝ → ℝ} {dmin dmax : ℝ} {secs : List (Sec ℝ)} (h : FitMesh eps M H W dmin dmax secs)
    (hE : |E| ≤ M) {y dy : ℝ → ℝ} (hy : SolvesMesh W E secs y dy) {x x' : ℝ} (hx : x ∈ Set.Icc dmin dmax) (hx' : x' ∈ Set.Icc dmin dmax)
    (hn : 0 < sz (y x, dy x)) : 0 < sz (y x', dy x') := by
  have ok := fit_okMesh h hE
  have g1 := (mesh_growth (by linarith) ok hy x hx).1
  have g2 := (mesh_growth (by linarith) ok hy x' hx').2
  have h1 : 0 < sz (y dmin, dy dmin) := by
    by_contra hc
    push Not at hc
    have := mul_nonpos_of_nonneg_of_nonpos (Real.exp_pos (2 * M * (x - dmin))).le hc
    linarith
  by_contra hc
  push Not at hc
  have := mul_nonpos_of_nonneg_of_nonpos (Real.exp_pos (2 * M * (x' - dmin))).le hc
  linarith

set_option maxHeartbeats 1000000 in
/-- **Convergence of the angle**, for the energy `E` against a solution at the energy `F`. -/
theorem angle_converge (M : ℝ) (hM : 1 ≤ M) : ∃ C : ℝ, 1 ≤ C ∧ ∀ (eps σ τ ε : ℝ) (eta : ℕ → ℝ → ℕ → ℝ) (vs : Sec ℝ → ℕ → ℝ) (W : Sec ℝ → ℝ → ℝ) (dmin dmax H E F : ℝ) (r : BuildResult ℝ)
    (m : Sec ℝ) (y dy Θ : ℝ → ℝ) (useH : Bool) (a b κ : ℝ) (c : Y ℝ),
    FitMesh eps M H W dmin dmax r.sectors → EtaWithin σ eta → CoeffsWithin τ W r.sectors vs → τ + r.sectors.length * σ ≤ ε → ε ≤ 1 →
    dmax - dmin ≤ M → |E| ≤ M → |F| ≤ M → r.sectors[r.matchIndex]? = some m →
    C * H ≤ 1 → (∀ s ∈ r.sectors, C * ε ≤ s.max - s.min) →
    (∀ s ∈ r.sectors, vs s 0 < E → C * (H ^ ord useH + ε / (s.max - s.min)) ≤ E - vs s 0) → C * |E - F| ≤ 1 →
    SolvesMesh W F r.sectors y dy → ContAngle dmin dmax (scaling (vs m 0) E) y dy Θ →
    κ ≠ 0 → c.y = κ * y a → c.dy = κ * dy a → (c.y ≠ 0 ∨ c.dy ≠ 0) →
    a ∈ Set.Icc dmin dmax → b ∈ Set.Icc dmin dmax → IsBoundary (bounds r.sectors) a → IsBoundary (bounds r.sectors) b →
    (a ≤ b → 0 ≤ Θ a ∧ Θ a < pi) → (b < a → 0 < Θ a ∧ Θ a ≤ pi) →
    ∃ res, (constructOf eps eta vs dmin dmax r).propagate pi E c a b useH = .ok res ∧ |res.2 - Θ b| ≤ C * (H ^ ord useH + ε + |E - F|) := by
  obtain ⟨C1, hC1, near⟩ := sector_near M hM
  obtain ⟨C2, hC2, ang⟩ := sector_angle M hM
  have hM0 : 0 ≤ M := by linarith
  set B := C1 * M + C1 + 4 * M with hB
  have hB0 : 1 ≤ B := by
    have : 0 ≤ C1 * M := by positivity
    rw [hB]; linarith
  set D := 16 * (3 * M * (Real.exp (4 * M * M + 3 * B) * B)) with hD
  have hD1 : 1 ≤ D := by
    have h1 : 1 ≤ Real.exp (4 * M * M + 3 * B) := Real.one_le_exp (by positivity)
    have h2 := one_le_mul_of_one_le_of_one_le h1 hB0
    have h3 := one_le_mul_of_one_le_of_one_le hM h2
    rw [hD]; linarith
  have hM2 : 0 ≤ M * M := by positivity
  refine ⟨3 * D + C2 + 768 * (M * M), by linarith, ?_⟩
  set C := 3 * D + C2 + 768 * (M * M) with hC
  intro eps σ τ ε eta vs W dmin dmax H E F r m y dy Θ useH a b κ c hf he hv hε hε1 hd hE hF hmm hCH hCε hband hCEF hy hΘ hκ hc1 hc2 hcne ha hb hba hbb hna hnb
  set P := constructOf eps eta vs dmin dmax r with hP
  have hPm : P.mesh = r.sectors := construct_mesh _ _ _ _ _ _
  have hPmin : P.dmin = dmin := rfl
  have hPmax : P.dmax = dmax := rfl
  have hm : IsMesh P.mesh P.dmin P.dmax := by rw [hPm]; exact hf.mesh
  have hsecs : P.secs = r.sectors.map (fun s => sectorOf eps eta (vs s) (vs m 0) s) := by
    rw [hP]; unfold constructOf
    rw [hmm]
  set v0M := vs m 0 with hv0M
  set sc := scaling v0M E with hscd
  have hA' : domainContains P.dmin P.dmax a = true := by rw [hPmin, hPmax]; simpa [domainContains] using ha
  have hB' : domainContains P.dmin P.dmax b = true := by rw [hPmin, hPmax]; simpa [domainContains] using hb
  obtain ⟨i, j, hi, hj, hia, hjb, hup, hdown, heq⟩ := propagate_closed P hm pi a b useH hA' hB'
  simp only [ccmp_le, ccmp_lt, decide_eq_true_eq, decide_eq_false_iff_not] at hup hdown
  obtain ⟨hlink, hin⟩ := walk_linked hm hi hj hia hjb hup hdown
  refine ⟨_, heq E c, ?_⟩
  have hH0 : 0 < H := fit_pos hf
  have hH1 := hf.small
  have hσ0 := he.nonneg
  have hN0 : 0 < r.sectors.length := hf.mesh.length_pos
  have hτ0 : 0 ≤ τ := (hv _ (List.getElem_mem hN0)).nonneg
  have hN1 : (1 : ℝ) ≤ r.sectors.length := by exact_mod_cast hN0
  have hσN : σ ≤ r.sectors.length * σ := le_mul_of_one_le_left hσ0 hN1
  have hε0 : 0 ≤ ε := by linarith
  have hσ1 : σ ≤ 1 := by linarith
  have hτ1 : τ ≤ 1 := by linarith
  have bd : ∀ {x : ℝ}, IsBoundary (bounds r.sectors) x → ∀ s ∈ r.sectors, x ≤ s.min ∨ s.max ≤ x := by
    intro x hx s hs
    obtain ⟨s', hs', hx'⟩ := mesh_isBoundary hx
    obtain ⟨k, hk, rfl⟩ := List.getElem_of_mem hs
    obtain ⟨m, hm', rfl⟩ := List.getElem_of_mem hs'
    have l1 : k < P.secs.length := by rw [hsecs, List.length_map]; exact hk
    have l2 : m < P.secs.length := by rw [hsecs, List.length_map]; exact hm'
    have e1 : (P.secs[k]).toSec = r.sectors[k] := by simp only [hsecs, List.getElem_map]; rfl
    have e2 : (P.secs[m]).toSec = r.sectors[m] := by simp only [hsecs, List.getElem_map]; rfl
    have := mesh_point hm l2 l1 (x := x) (by rw [e2]; exact hx')
    rwa [e1] at this
  have hmem : m ∈ r.sectors := List.mem_of_getElem? hmm
  have hmlt : ∀ s ∈ r.sectors, s.min < s.max := fun s hs => by
    have := hf.wide s hs
    have := hf.eps_nonneg
    linarith
  have hvM : E - v0M ≤ 3 * M := by
    have h1 := (coeff_zero_bound (hmlt m hmem) (hf.smooth m hmem) (hv m hmem)).1
    rw [abs_le] at h1 hE
    linarith [h1.1, hE.2]
  have hsc1 : 1 ≤ sc := scaling_one v0M E
  have hscS : sc ^ 2 ≤ 3 * M := scaling_sq (by linarith) hvM
  set δ := |F - E| with hδ
  have hδ' : |E - F| = δ := abs_sub_comm _ _
  rw [hδ'] at hCEF ⊢
  have δ0 : 0 ≤ δ := abs_nonneg _
  have hDC : D * 3 ≤ C := by rw [hC]; linarith
  have hC2C : C2 ≤ C := by rw [hC]; linarith
  have hMC : 768 * (M * M) ≤ C := by rw [hC]; linarith
  -- the multiple of the solution that starts at the column
  set z : ℝ → ℝ := fun x => κ * y x with hz
  set dz : ℝ → ℝ := fun x => κ * dy x with hdz
  have hzs : SolvesMesh W F r.sectors z dz := by
    intro s hs
    have := (hy s hs).comb (hy s hs) κ 0
    refine this.congr (fun x _ => ?_) (fun x _ => ?_)
    · show κ * y x = κ * y x + 0 * y x; ring
    · show κ * dy x = κ * dy x + 0 * dy x; ring
  have hza : (z a, dz a) = pr c := by show (κ * y a, κ * dy a) = (c.y, c.dy); rw [hc1, hc2]
  have hzΘ : ContAngle dmin dmax sc z dz Θ := ⟨hΘ.cont, fun x hx => by
    have := (hΘ.angle x hx).smul κ
    show IsAngle (Θ x) (sc * (κ * y x)) (κ * dy x)
    rwa [show sc * (κ * y x) = κ * (sc * y x) by ring]⟩
  have hcz : 0 < sz (z a, dz a) := by
    rw [hza]
    rcases hcne with h | h
    · exact lt_of_lt_of_le (abs_pos.mpr h) (le_max_left _ _)
    · exact lt_of_lt_of_le (abs_pos.mpr h) (le_max_right _ _)
  have hsecin : ∀ s ∈ r.sectors, dmin ≤ s.min ∧ s.max ≤ dmax := fun s hs => (chn_range (chn_of_tiling _ hf.mesh.tiling) hmlt).2 s hs
  -- the initial angle
  have hia' : IsAngle (Θ a) (sc * c.y) c.dy := by
    have := hzΘ.angle a ha
    have e1 : z a = c.y := hc1.symm
    have e2 : dz a = c.dy := hc2.symm
    rwa [e1, e2] at this
  have hir : i < r.sectors.length := by rw [hsecs, List.length_map] at hi; exact hi
  have hinit : P.initTheta pi E c a b i = Θ a := by
    refine init_eq (v0M := v0M) (v0 := vs (r.sectors[i]) 0) hi ?_ ?_ hia' ⟨hna, hnb⟩
    · simp only [hsecs, List.getElem_map]; rfl
    · rintro ⟨h1, h2⟩
      rcases hcne with h | h
      · exact h h1
      · exact h h2
  rw [hinit]
  -- one sector
  set e : ℕ → ℝ := fun k => (C1 * ((H ^ ord useH + τ) * |pos P b k - pos P a k| + σ)) + 4 * δ * |pos P b k - pos P a k| with hedef
  have sec : ∀ k ∈ visited i j, ((a ≤ b → pos P a k ≤ pos P b k) ∧ (b ≤ a → pos P b k ≤ pos P a k)) ∧
      (0 ≤ e k ∧ 0 < sz (z (pos P a k), dz (pos P a k)) ∧ 0 < sz (z (pos P b k), dz (pos P b k)) ∧ IsAngle (Θ (pos P b k)) (sc * z (pos P b k)) (dz (pos P b k)) ∧
        |Θ (pos P b k) - Θ (pos P a k)| ≤ 1 / 4 ∧
        (∀ st : Y ℝ × ℝ, 0 < sz (pr st.1) → IsAngle st.2 (sc * st.1.y) st.1.dy →
          IsAngle (P.stepAt E useH a b st k).2 (sc * (P.stepAt E useH a b st k).1.y) (P.stepAt E useH a b st k).1.dy ∧ |(P.stepAt E useH a b st k).2 - st.2| ≤ 1 / 4) ∧
        ∃ (w : ℝ → ℝ) (G a' b' : ℝ) (Sm : ℝ × ℝ → ℝ × ℝ), (∀ st, pr (P.stepAt E useH a b st k).1 = Sm (pr st.1)) ∧ Near w G a' b' Sm (pos P a k) (pos P b k) (e k) ∧
          ContinuousOn w (Set.Icc a' b') ∧ (∀ x ∈ Set.Icc a' b', |w x - G| ≤ 2 * M) ∧ pos P a k ∈ Set.Icc a' b' ∧ pos P b k ∈ Set.Icc a' b' ∧ SolvesOn w G a' b' z dz) := by
    intro k hk
    obtain ⟨hk1, -⟩ := hin k hk
    have hkr : k < r.sectors.length := by rw [hsecs, List.length_map] at hk1; exact hk1
    have hsk : P.secs[k] = sectorOf eps eta (vs (r.sectors[k])) v0M (r.sectors[k]) := by
      simp only [hsecs, List.getElem_map]
    have hs : r.sectors[k] ∈ r.sectors := List.getElem_mem hkr
    set s := r.sectors[k] with hsdef
    have hw := hf.wide s hs
    have hn := hf.narrow s hs
    have hlt := hmlt s hs
    have hh0 : 0 < s.max - s.min := by linarith
    have p1 : pos P a k = cl s.min s.max a := by rw [pos_eq P a hk1, hsk]; rfl
    have p2 : pos P b k = cl s.min s.max b := by rw [pos_eq P b hk1, hsk]; rfl
    have ma : pos P a k ∈ Set.Icc s.min s.max := by rw [p1]; exact cl_mem hlt.le a
    have mb : pos P b k ∈ Set.Icc s.min s.max := by rw [p2]; exact cl_mem hlt.le b
    have hin' := hsecin s hs
    have sub : Set.Icc s.min s.max ⊆ Set.Icc dmin dmax := Set.Icc_subset_Icc hin'.1 hin'.2
    have hstep : ∀ st : Y ℝ × ℝ, P.stepAt E useH a b st k = (((sectorOf eps eta (vs s) v0M s).propagate E useH st.1 a b).1, st.2 + ((sectorOf eps eta (vs s) v0M s).propagate E useH st.1 a b).2) := by
      intro st
      unfold Prob.stepAt
      rw [List.getElem?_eq_getElem hk1]
      dsimp only
      rw [hsk]
    have sk1 : ∀ x, Skips eps 1 s.min s.max x := fun x _ _ =>
      ⟨fun h => h.trans (by linarith), fun h => h.trans (by linarith)⟩
    obtain ⟨Sm, hSm, -, n2⟩ := near eps σ τ 1 eta (vs s) (W s) v0M E s useH a b he hσ1 hτ1 zero_le_one le_rfl (sk1 a) (sk1 b) hf.eps_nonneg hw (hn.trans hH1) (hf.smooth s hs) (hv s hs) hE (hf.directed s hs)
    have n2 := n2 (bd hba s hs) (bd hbb s hs)
    rw [← p1, ← p2] at n2
    have CH' : C * (s.max - s.min) ≤ 1 := (mul_le_mul_of_nonneg_left hn (by linarith)).trans hCH
    have hSK : 128 * (3 * M * (2 * M * (s.max - s.min))) ≤ 1 := by
      have := mul_le_mul_of_nonneg_right hMC hh0.le
      linarith
    have hK4 : 2 * (2 * M * (s.max - s.min)) ≤ 1 := by
      have h1 : 0 ≤ 2 * M * (s.max - s.min) := by positivity
      have h2 : 1 * (2 * M * (s.max - s.min)) ≤ 3 * M * (2 * M * (s.max - s.min)) := mul_le_mul_of_nonneg_right (by linarith) h1
      linarith
    have n3 : Near (W s) F s.min s.max Sm (pos P a k) (pos P b k) (e k) :=
      Near.mono (Near.energy n2 (hf.smooth s hs).continuousOn (by linarith : 1 ≤ 2 * M) (pot_bound (hf.smooth s hs) hE) (pot_bound (hf.smooth s hs) hF) hK4 ma mb) (by
        rw [hedef]
        refine add_le_add (mul_le_mul_of_nonneg_left (add_le_add (mul_le_mul_of_nonneg_right
          (add_le_add (pow_le_pow_left₀ hh0.le hn _) le_rfl) (abs_nonneg _)) le_rfl) (by linarith)) le_rfl)
    have hτσ : (s.max - s.min) * τ + σ ≤ ε := by
      have : (s.max - s.min) * τ ≤ 1 * τ := mul_le_mul_of_nonneg_right (hn.trans hH1) hτ0
      linarith
    have hang := ang eps σ τ eta (vs s) (W s) v0M E s useH a b he hσ1 hτ1 hf.eps_nonneg hw (hn.trans hH1) (hf.smooth s hs) (hv s hs) hE (hf.directed s hs)
      (bd hba s hs) (bd hbb s hs) hvM ((mul_le_mul_of_nonneg_right hC2C hh0.le).trans CH')
      ((mul_le_mul hC2C hτσ (by positivity) (by linarith)).trans (hCε s hs)) (by
        intro hvE
        have h1 := hband s hs hvE
        have h2 := mul_le_mul_of_nonneg_left h1 hh0.le
        have h3 : (s.max - s.min) * (C * (H ^ ord useH + ε / (s.max - s.min))) = C * ((s.max - s.min) * H ^ ord useH + ε) := by
          field_simp
        rw [h3] at h2
        refine le_trans (mul_le_mul hC2C ?_ (by positivity) (by linarith)) h2
        have h4 : (s.max - s.min) ^ (ord useH + 1) ≤ (s.max - s.min) * H ^ ord useH := by
          rw [pow_succ, mul_comm]
          exact mul_le_mul_of_nonneg_left (pow_le_pow_left₀ hh0.le hn _) hh0.le
        linarith)
    have hzq : ∀ x ∈ Set.Icc s.min s.max, 0 < sz (z x, dz x) := fun x hx => mesh_nonzero hM hf hF hzs ha (sub hx) hcz
    have hturn : |Θ s.max - Θ s.min| ≤ 1 / 4 :=
      exact_turn (V := W s) (E := F) (K := 2 * M) (S := 3 * M) (z := z) (dz := dz) (by linarith) (pot_bound (hf.smooth s hs) hF) (hzs s hs) (by linarith) hSK hlt.le
        (hzq _ ⟨le_rfl, hlt.le⟩) hsc1 hscS ⟨hzΘ.cont.mono sub, fun x hx => hzΘ.angle x (sub hx)⟩
    refine ⟨by rw [p1, p2]; exact ⟨cl_mono, cl_mono⟩, by rw [hedef]; positivity, hzq _ ma, hzq _ mb, hzΘ.angle _ (sub mb), ?_, ?_, W s, F, s.min, s.max, Sm, ?_, n3,
      (hf.smooth s hs).continuousOn, pot_bound (hf.smooth s hs) hF, ma, mb, hzs s hs⟩
    · rw [p1, p2]
      rcases bd hba s hs with h1 | h1 <;> rcases bd hbb s hs with h2 | h2
      · rw [cl_low h1, cl_low h2]; simp
      · rw [cl_low h1, cl_high hlt.le h2]; exact hturn
      · rw [cl_high hlt.le h1, cl_low h2, abs_sub_comm]; exact hturn
      · rw [cl_high hlt.le h1, cl_high hlt.le h2]; simp
    · intro st hst0 hst
      obtain ⟨a1, a2⟩ := hang st.1 st.2 hst0 hst
      rw [hstep]
      refine ⟨a1, ?_⟩
      show |st.2 + _ - st.2| ≤ 1 / 4
      rw [add_sub_cancel_left]; exact a2
    · intro st
      rw [hstep]; exact hSm st.1
  -- the sums
  have hX := sum_pos_le hlink (fun k hk => (sec k hk).1)
  have hXM : |b - a| ≤ M := by rw [abs_le]; constructor <;> linarith [ha.1, ha.2, hb.1, hb.2]
  set t := H ^ ord useH + ε + δ with ht
  have hHo : 0 ≤ H ^ ord useH := by positivity
  have hsum : ((visited i j).map e).sum ≤ B * t := by
    have e1 : e = fun k => C1 * ((H ^ ord useH + τ + 4 * δ / C1) * |pos P b k - pos P a k| + σ) := by
      funext k
      rw [hedef]
      have : C1 ≠ 0 := by linarith
      field_simp
      ring
    rw [e1, sum_affine, hX]
    have hl : ((visited i j).length : ℝ) ≤ r.sectors.length := by
      have := visited_length hi hj
      rw [hsecs, List.length_map] at this
      exact_mod_cast this
    have e2 : C1 * ((H ^ ord useH + τ + 4 * δ / C1) * |b - a| + (visited i j).length * σ) = C1 * ((H ^ ord useH + τ) * |b - a|) + 4 * δ * |b - a| + C1 * ((visited i j).length * σ) := by
      have : C1 ≠ 0 := by linarith
      field_simp
    rw [e2]
    have m1 : (H ^ ord useH + τ) * |b - a| ≤ (H ^ ord useH + τ) * M := mul_le_mul_of_nonneg_left hXM (by positivity)
    have m2 := mul_le_mul_of_nonneg_left m1 (show 0 ≤ C1 by linarith)
    have m3 : 4 * δ * |b - a| ≤ 4 * δ * M := mul_le_mul_of_nonneg_left hXM (by positivity)
    have m4 : ((visited i j).length : ℝ) * σ ≤ r.sectors.length * σ := mul_le_mul_of_nonneg_right hl hσ0
    have m5 := mul_le_mul_of_nonneg_left m4 (show 0 ≤ C1 by linarith)
    have f1 : C1 * ((r.sectors.length : ℝ) * σ) ≤ C1 * ε := mul_le_mul_of_nonneg_left (by linarith) (by linarith)
    have f2 : C1 * ((H ^ ord useH + τ) * M) ≤ C1 * ((H ^ ord useH + ε) * M) := mul_le_mul_of_nonneg_left (mul_le_mul_of_nonneg_right (by linarith [mul_nonneg (Nat.cast_nonneg r.sectors.length : (0:ℝ) ≤ _) hσ0]) hM0) (by linarith)
    have f3 : B * t = C1 * ((H ^ ord useH + ε) * M) + C1 * ε + 4 * δ * M + (C1 * M * δ + C1 * H ^ ord useH + C1 * δ + 4 * M * H ^ ord useH + 4 * M * ε) := by
      rw [hB, ht]; ring
    have f4 : 0 ≤ C1 * M * δ + C1 * H ^ ord useH + C1 * δ + 4 * M * H ^ ord useH + 4 * M * ε := by positivity
    rw [f3]
    linarith
  have hs0 : 0 ≤ ((visited i j).map e).sum := List.sum_nonneg (by
    intro x hx
    obtain ⟨k, hk, rfl⟩ := List.mem_map.mp hx
    exact (sec k hk).2.1)
  have hHH : H ^ ord useH ≤ H := by
    calc H ^ ord useH ≤ H ^ 1 := pow_le_pow_of_le_one hH0.le hH1 (by cases useH <;> norm_num [ord])
      _ = H := pow_one H
  have hDt : D * t ≤ 1 := by
    have h0 := hmlt m hmem
    have k1 : D * 3 * H ^ ord useH ≤ 1 := by
      have := mul_le_mul hDC hHH hHo (by linarith)
      linarith
    have k2 : D * 3 * ε ≤ 1 := by
      have := mul_le_mul_of_nonneg_right hDC hε0
      have := hCε m hmem
      have := hf.narrow m hmem
      linarith
    have k3 : D * 3 * δ ≤ 1 := (mul_le_mul_of_nonneg_right hDC δ0).trans hCEF
    rw [ht]; linarith
  have ht3 : t ≤ 3 := by
    have : 0 ≤ t := by rw [ht]; positivity
    nlinarith
  have ht0 : 0 ≤ t := by rw [ht]; positivity
  set s := ((visited i j).map e).sum with hsd
  have hR : 16 * (3 * M * (Real.exp (2 * (2 * M) * ((visited i j).map fun k => |pos P b k - pos P a k|).sum + s) * (0 + s))) ≤ D * t := by
    rw [hX, zero_add]
    have e1 : Real.exp (2 * (2 * M) * |b - a| + s) ≤ Real.exp (4 * M * M + 3 * B) := by
      refine Real.exp_le_exp.mpr ?_
      have h1 := mul_le_mul_of_nonneg_left hXM (show 0 ≤ 4 * M by linarith)
      have h2 := mul_le_mul_of_nonneg_left ht3 (show 0 ≤ B by linarith)
      linarith
    have e2 := mul_le_mul e1 hsum hs0 (Real.exp_pos _).le
    have e3 := mul_le_mul_of_nonneg_left e2 (show 0 ≤ 16 * (3 * M) by linarith)
    rw [hD]
    linarith
  have fin := angle_chain (K := 2 * M) (S := 3 * M) (by linarith) (by linarith) hsc1 hscS (y := z) (dy := dz) (Θ := Θ) (step := P.stepAt E useH a b) (p := pos P a) (q := pos P b) (e := e)
    (l := visited i j) (c, Θ a) 0 le_rfl (fun k hk => (sec k hk).2) hlink (hR.trans hDt) (by rw [hza, sub_self]; simp [sz]) hia' (by simp)
  refine fin.trans ?_
  have : D * t ≤ C * t := mul_le_mul_of_nonneg_right (by linarith) ht0
  have hR0 : 0 ≤ 3 * M * (Real.exp (2 * (2 * M) * ((visited i j).map fun k => |pos P b k - pos P a k|).sum + s) * (0 + s)) := by positivity
  linarith

end Verif.Solver
