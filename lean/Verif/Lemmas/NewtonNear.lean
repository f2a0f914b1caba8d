import Verif.Lemmas.EnergyMesh

/-!
# The matching error at two energies, and one Newton step
-/
namespace Verif.Solver
open Verif.Mesh Verif.YT Verif.CalcT Verif.Propag Verif.Formulas Verif.Legendre Verif.Spec

/-- the Wronskian-like form of the matching error -/
def bl (u v : ℝ × ℝ) : ℝ := u.2 * v.1 - v.2 * u.1

theorem bl_bound (u v : ℝ × ℝ) : |bl u v| ≤ 2 * (sz u * sz v) := by
  have h1 : |u.2 * v.1| ≤ sz u * sz v := by rw [abs_mul]; exact mul_le_mul (le_sz2 u) (le_sz1 v) (abs_nonneg _) (sz_nonneg _)
  have h2 : |v.2 * u.1| ≤ sz u * sz v := by
    rw [abs_mul, mul_comm]; exact mul_le_mul (le_sz1 u) (le_sz2 v) (abs_nonneg _) (sz_nonneg _)
  have := abs_sub (u.2 * v.1) (v.2 * u.1)
  unfold bl; linarith

theorem bl_expand (u u' w v v' z : ℝ × ℝ) (Δ : ℝ) :
    bl u' v' - bl u v - Δ * (bl w v + bl u z) = bl (u' - u - Δ • w) v + bl u (v' - v - Δ • z) + bl (u' - u) (v' - v) := by
  simp only [bl, Prod.fst_sub, Prod.snd_sub, Prod.smul_fst, Prod.smul_snd, smul_eq_mul]; ring

theorem pair_bound {C s r δ ε κ : ℝ} {u u' w v v' z : ℝ × ℝ} {Δ : ℝ} (hC : 1 ≤ C) (hs : 0 ≤ s) (hr : 0 ≤ r) (hδ : 0 ≤ δ) (hε : 0 ≤ ε) (hκ : (δ + ε) ^ 2 ≤ 2 * κ)
    (hu : sz u ≤ C * s) (hv : sz v ≤ C * r)
    (du : sz (u' - u) ≤ C * (δ + ε) * s) (dv : sz (v' - v) ≤ C * (δ + ε) * r)
    (qu : sz (u' - u - Δ • w) ≤ C * κ * s) (qv : sz (v' - v - Δ • z) ≤ C * κ * r) :
    |bl u' v' - bl u v - Δ * (bl w v + bl u z)| ≤ 8 * C ^ 2 * κ * (s * r) := by
  have hκ0 : 0 ≤ κ := by nlinarith [sq_nonneg (δ + ε)]
  rw [bl_expand]
  have h1 := (bl_bound (u' - u - Δ • w) v).trans (mul_le_mul_of_nonneg_left (mul_le_mul qu hv (sz_nonneg _) (by positivity)) (by norm_num : (0 : ℝ) ≤ 2))
  have h2 := (bl_bound u (v' - v - Δ • z)).trans (mul_le_mul_of_nonneg_left (mul_le_mul hu qv (sz_nonneg _) (by positivity)) (by norm_num : (0 : ℝ) ≤ 2))
  have h3 := (bl_bound (u' - u) (v' - v)).trans (mul_le_mul_of_nonneg_left (mul_le_mul du dv (sz_nonneg _) (by positivity)) (by norm_num : (0 : ℝ) ≤ 2))
  have h4 := abs_add_three (bl (u' - u - Δ • w) v) (bl u (v' - v - Δ • z)) (bl (u' - u) (v' - v))
  have h5 : 2 * (C * (δ + ε) * s * (C * (δ + ε) * r)) = 2 * C ^ 2 * (s * r) * (δ + ε) ^ 2 := by ring
  have h6 : 2 * C ^ 2 * (s * r) * (δ + ε) ^ 2 ≤ 2 * C ^ 2 * (s * r) * (2 * κ) := mul_le_mul_of_nonneg_left hκ (by positivity)
  have h7 : 2 * (C * κ * s * (C * r)) = 2 * C ^ 2 * κ * (s * r) := by ring
  have h8 : 2 * (C * s * (C * κ * r)) = 2 * C ^ 2 * κ * (s * r) := by ring
  have h9 : 2 * C ^ 2 * (s * r) * (2 * κ) = 4 * C ^ 2 * κ * (s * r) := by ring
  linarith

/-- **The matching error at two energies.** -/
theorem matching_energy (M : ℝ) (hM : 1 ≤ M) : ∃ C : ℝ, 1 ≤ C ∧ ∀ (eps σ τ ε : ℝ) (eta : ℕ → ℝ → ℕ → ℝ) (vs : Sec ℝ → ℕ → ℝ) (W : Sec ℝ → ℝ → ℝ) (dmin dmax H E E' pi : ℝ) (r : BuildResult ℝ)
    (useH : Bool) (left right : Y ℝ),
    FitMesh eps M H W dmin dmax r.sectors → EtaWithin σ eta → CoeffsWithin τ W r.sectors vs → τ + r.sectors.length * σ ≤ ε → ε ≤ 1 →
    dmax - dmin ≤ M → |E| ≤ M → |E'| ≤ M → r.matchIndex < r.sectors.length → pe left = 0 → pe right = 0 →
    ∃ err err', (constructOf eps eta vs dmin dmax r).matchingError pi E left right useH = .ok err ∧ (constructOf eps eta vs dmin dmax r).matchingError pi E' left right useH = .ok err' ∧
      |err'.1 - err.1 - (E' - E) * err.2.1| ≤ C * ((E' - E) ^ 2 + |E' - E| * (H ^ 16 + ε) + ε) * (sz (pr left) * sz (pr right)) ∧
      |err.2.1| ≤ C * (sz (pr left) * sz (pr right)) := by
  obtain ⟨C, hC, key⟩ := propagate_energy M hM
  refine ⟨8 * C ^ 2, by nlinarith, ?_⟩
  intro eps σ τ ε eta vs W dmin dmax H E E' pi r useH left right hf he hv hε hε1 hd hE hE' hm hl0 hr0
  have hH0 := fit_pos hf
  have ok := fit_okMesh hf hE
  have hab := (chn_range ok.chn ok.pos).1
  set P := constructOf eps eta vs dmin dmax r with hP
  obtain ⟨v0M, hsecs⟩ := construct_secs eps eta vs dmin dmax r
  rw [← hP] at hsecs
  have hlen : r.matchIndex < P.secs.length := by rw [hsecs, List.length_map]; exact hm
  have hmi : P.matchIndex = r.matchIndex := rfl
  set s := r.sectors[r.matchIndex] with hsd
  have hsm : s ∈ r.sectors := List.getElem_mem hm
  have hget : P.secs[P.matchIndex]? = some (sectorOf eps eta (vs s) v0M s) := by
    rw [hmi, List.getElem?_eq_getElem hlen]
    simp only [hsecs, List.getElem_map, hsd]
  have hmx : (sectorOf eps eta (vs s) v0M s).max = s.max := rfl
  set m := s.max with hmdef
  have rs := (chn_range ok.chn ok.pos).2 s hsm
  have ps := ok.pos s hsm
  have mI : m ∈ Set.Icc dmin dmax := ⟨by linarith, rs.2⟩
  have aI : dmin ∈ Set.Icc dmin dmax := ⟨le_rfl, hab⟩
  have bI : dmax ∈ Set.Icc dmin dmax := ⟨hab, le_rfl⟩
  have bm : IsBoundary (bounds r.sectors) m := (boundary_of_mem hsm).2
  have ba : IsBoundary (bounds r.sectors) dmin := by
    rw [← hf.mesh.first]; exact (boundary_of_mem (List.getElem_mem _)).1
  have bb : IsBoundary (bounds r.sectors) dmax := by
    rw [← hf.mesh.last]; exact (boundary_of_mem (List.getElem_mem _)).2
  have hpm : P.dmin = dmin := rfl
  have hpM : P.dmax = dmax := rfl
  obtain ⟨L, L', e1, e2, l1, l1', l2, l3, l4⟩ := key eps σ τ ε eta vs W dmin dmax H E E' pi r useH dmin m left hf he hv hε hε1 hd hE hE' aI mI ba bm hl0
  obtain ⟨R, R', f1, f2, r1, r1', r2, r3, r4⟩ := key eps σ τ ε eta vs W dmin dmax H E E' pi r useH dmax m right hf he hv hε hε1 hd hE hE' bI mI bb bm hr0
  have hε0 : 0 ≤ ε := by
    have h1 := (hv s hsm).nonneg
    have h2 := mul_nonneg (Nat.cast_nonneg (α := ℝ) r.sectors.length) he.nonneg
    linarith
  have me : ∀ (F : ℝ) (A B : Y ℝ × ℝ), P.propagate pi F left dmin m useH = .ok A → P.propagate pi F right dmax m useH = .ok B →
      P.matchingError pi F left right useH = .ok (bl (pr A.1) (pr B.1), bl (pe A.1) (pr B.1) + bl (pr A.1) (pe B.1), A.2 - B.2) := by
    intro F A B hA hB
    unfold Prob.matchingError
    rw [hget]
    simp only [hmx, hpm, hpM]
    rw [hA, hB]
    simp only [Outcome.bind_ok, Outcome.pure_eq, bl, pr, pe]
    congr 3
    ring
  refine ⟨_, _, me E L R e1 f1, me E' L' R' e2 f2, ?_, ?_⟩
  · refine pair_bound hC (sz_nonneg _) (sz_nonneg _) (abs_nonneg (E' - E)) hε0 ?_ l1 r1 l3 r3 l4 r4
    have h1 : (E' - E) ^ 2 = |E' - E| ^ 2 := (sq_abs _).symm
    have h2 : ε ^ 2 ≤ ε := by rw [pow_two]; exact mul_le_of_le_one_left hε0 hε1
    have h3 : 0 ≤ |E' - E| * (H ^ 16 + ε) := by positivity
    have h4 : (|E' - E| + ε) ^ 2 ≤ 2 * |E' - E| ^ 2 + 2 * ε ^ 2 := by nlinarith [sq_nonneg (|E' - E| - ε)]
    rw [h1]; linarith
  · show |bl (pe L.1) (pr R.1) + bl (pr L.1) (pe R.1)| ≤ _
    have h1 := (bl_bound (pe L.1) (pr R.1)).trans (mul_le_mul_of_nonneg_left (mul_le_mul l2 r1 (sz_nonneg _) (mul_nonneg (by linarith) (sz_nonneg _))) (by norm_num : (0 : ℝ) ≤ 2))
    have h2 := (bl_bound (pr L.1) (pe R.1)).trans (mul_le_mul_of_nonneg_left (mul_le_mul l1 r2 (sz_nonneg _) (mul_nonneg (by linarith) (sz_nonneg _))) (by norm_num : (0 : ℝ) ≤ 2))
    have h3 := abs_add_le (bl (pe L.1) (pr R.1)) (bl (pr L.1) (pe R.1))
    have h4 : 2 * (C * sz (pr left) * (C * sz (pr right))) = 2 * C ^ 2 * (sz (pr left) * sz (pr right)) := by ring
    have h5 : 0 ≤ C ^ 2 * (sz (pr left) * sz (pr right)) := mul_nonneg (by positivity) (mul_nonneg (sz_nonneg _) (sz_nonneg _))
    linarith

theorem deriv_lower {N t C1 C2 C3 κ Δ e e' D D' d : ℝ} (hN : 0 < N) (ht : 0 < t) (hC2 : 0 < C2) (hC3 : 0 ≤ C3) (hκ : 0 ≤ κ) (h1 : |e - D| ≤ C1 * κ * N) (h2 : |e' - D'| ≤ C1 * κ * N)
    (h3 : N * t ≤ C2 * |D' - D|) (h4 : |e' - e - Δ * d| ≤ C3 * (4 * t ^ 2 + 3 * κ) * N) (h5 : |Δ| ≤ 2 * t) (h6 : 16 * C2 * C3 * t ≤ 1)
    (h7 : C2 * (2 * C1 + 3 * C3) * κ ≤ t / 4) : N ≤ 4 * C2 * |d| := by
  have a1 : |D' - D| ≤ |e - D| + |e' - D'| + |e' - e - Δ * d| + |Δ| * |d| := by
    have : D' - D = (e - D) - (e' - D') + (e' - e - Δ * d) + Δ * d := by ring
    rw [this, ← abs_mul]
    refine (abs_add_le _ _).trans (add_le_add ((abs_add_le _ _).trans (add_le_add (abs_sub _ _) le_rfl)) le_rfl)
  have a2 : |Δ| * |d| ≤ 2 * t * |d| := mul_le_mul_of_nonneg_right h5 (abs_nonneg _)
  have a3 : |D' - D| ≤ 2 * (C1 * κ * N) + C3 * (4 * t ^ 2 + 3 * κ) * N + 2 * t * |d| := by linarith
  have a4 := h3.trans (mul_le_mul_of_nonneg_left a3 hC2.le)
  have a5 : C2 * (2 * (C1 * κ * N) + C3 * (4 * t ^ 2 + 3 * κ) * N + 2 * t * |d|) = C2 * (2 * C1 + 3 * C3) * κ * N + 16 * C2 * C3 * t * (t * N / 4) + t * (2 * C2 * |d|) := by ring
  have a6 : C2 * (2 * C1 + 3 * C3) * κ * N ≤ t / 4 * N := mul_le_mul_of_nonneg_right h7 hN.le
  have a7 : 16 * C2 * C3 * t * (t * N / 4) ≤ 1 * (t * N / 4) := mul_le_mul_of_nonneg_right h6 (by positivity)
  have a8 : t * N ≤ t * (4 * C2 * |d|) := by linarith
  exact le_of_mul_le_mul_left a8 ht

theorem newton_alg {N C1 C2 C3 κ x E lam e el d : ℝ} (hN : 0 < N) (hC1 : 0 ≤ C1) (hC3 : 0 ≤ C3) (hC2 : 0 < C2) (hκ : 0 ≤ κ) (h1 : |el| ≤ C1 * κ * N)
    (h2 : |el - e - (lam - E) * d| ≤ C3 * (x ^ 2 + 2 * κ) * N) (h3 : N ≤ 4 * C2 * |d|) :
    |E - e / d - lam| ≤ 4 * C2 * (C1 + 2 * C3) * (x ^ 2 + κ) := by
  have hd : 0 < |d| := by
    rcases (abs_nonneg d).eq_or_lt with h | h
    · rw [← h] at h3; linarith
    · exact h
  have hd0 : d ≠ 0 := abs_pos.mp hd
  have a1 : E - e / d - lam = ((el - e - (lam - E) * d) - el) / d := by field_simp; ring
  rw [a1, abs_div, div_le_iff₀ hd]
  have a2 := abs_sub (el - e - (lam - E) * d) el
  have a3 : C3 * (x ^ 2 + 2 * κ) * N + C1 * κ * N ≤ (C1 + 2 * C3) * (x ^ 2 + κ) * N := by
    have : 0 ≤ (C1 * x ^ 2 + C3 * x ^ 2) * N := by positivity
    have e1 : (C1 + 2 * C3) * (x ^ 2 + κ) * N = C3 * (x ^ 2 + 2 * κ) * N + C1 * κ * N + (C1 * x ^ 2 + C3 * x ^ 2) * N := by ring
    linarith
  have a4 : (C1 + 2 * C3) * (x ^ 2 + κ) * N ≤ (C1 + 2 * C3) * (x ^ 2 + κ) * (4 * C2 * |d|) := mul_le_mul_of_nonneg_left h3 (by positivity)
  have e2 : 4 * C2 * (C1 + 2 * C3) * (x ^ 2 + κ) * |d| = (C1 + 2 * C3) * (x ^ 2 + κ) * (4 * C2 * |d|) := by ring
  linarith

set_option maxHeartbeats 1600000 in
/-- **One Newton step near an exact eigenvalue.** -/
theorem newton_step (M : ℝ) (hM : 1 ≤ M) : ∃ C : ℝ, 1 ≤ C ∧ ∀ (eps σ τ ε : ℝ) (eta : ℕ → ℝ → ℕ → ℝ) (vs : Sec ℝ → ℕ → ℝ) (W : Sec ℝ → ℝ → ℝ) (dmin dmax H lam E pi : ℝ) (r : BuildResult ℝ)
    (useH : Bool) (left right : Y ℝ),
    FitMesh eps M H W dmin dmax r.sectors → EtaWithin σ eta → CoeffsWithin τ W r.sectors vs → τ + r.sectors.length * σ ≤ ε → ε ≤ 1 →
    dmax - dmin ≤ M → 1 / M ≤ dmax - dmin → |lam| ≤ M → r.matchIndex < r.sectors.length → pe left = 0 → pe right = 0 →
    0 < sz (pr left) → 0 < sz (pr right) → IsEigenvalue W r.sectors dmin dmax (pr left) (pr right) lam →
    C * (H ^ ord useH + ε) ≤ 1 → |E - lam| ≤ 1 / C →
    ∃ err, (constructOf eps eta vs dmin dmax r).matchingError pi E left right useH = .ok err ∧
      sz (pr left) * sz (pr right) ≤ C * |err.2.1| ∧ |E - err.1 / err.2.1 - lam| ≤ C * ((E - lam) ^ 2 + (H ^ ord useH + ε)) := by
  obtain ⟨C1, hC1, near⟩ := matching_near (M + 1) (by linarith)
  obtain ⟨C2, ρ, hC2, ρ0, ρ1, sens⟩ := sensitivity M hM
  obtain ⟨C3, hC3, en⟩ := matching_energy (M + 1) (by linarith)
  set t := min ρ (1 / (16 * C2 * C3)) with htdef
  have t0 : 0 < t := lt_min ρ0 (by positivity)
  have tρ : t ≤ ρ := min_le_left _ _
  have t1 : t ≤ 1 := tρ.trans ρ1
  have h6 : 16 * C2 * C3 * t ≤ 1 := by
    have : t ≤ 1 / (16 * C2 * C3) := min_le_right _ _
    rw [le_div_iff₀ (by positivity)] at this
    linarith
  have p1 : 0 ≤ 4 * C2 * (C1 + 2 * C3) := by positivity
  have p2 : 0 ≤ 4 * C2 * (2 * C1 + 3 * C3) / t := by positivity
  have p3 : 1 ≤ 1 / t := by rw [le_div_iff₀ t0]; linarith
  set C := 4 * C2 * (C1 + 2 * C3) + 4 * C2 * (2 * C1 + 3 * C3) / t + 1 / t + 4 * C2 with hCdef
  have C1le : 1 ≤ C := by rw [hCdef]; linarith
  have C0 : 0 < C := by linarith
  refine ⟨C, C1le, ?_⟩
  intro eps σ τ ε eta vs W dmin dmax H lam E pi r useH left right hf he hv hε hε1 hd hd' hlam hm hl0 hr0 szL szR heig hκ1 hE
  set κ := H ^ ord useH + ε with hκ
  have hH0 := fit_pos hf
  have hM1 : M ≤ M + 1 := by linarith
  have hf1 := fit_le hf hM1
  have ok := fit_ok hf hd hd'
  have hε0 : 0 ≤ ε := by
    have h1 := (hv _ (List.getElem_mem hm)).nonneg
    have h2 := mul_nonneg (Nat.cast_nonneg (α := ℝ) r.sectors.length) he.nonneg
    linarith
  have hHp : 0 ≤ H ^ ord useH := by positivity
  have κ0 : 0 ≤ κ := by positivity
  have κle : 4 * C2 * (2 * C1 + 3 * C3) / t * κ ≤ 1 := le_trans (mul_le_mul_of_nonneg_right (by rw [hCdef]; linarith) κ0) hκ1
  have h7 : C2 * (2 * C1 + 3 * C3) * κ ≤ t / 4 := by
    have e : 4 * C2 * (2 * C1 + 3 * C3) / t * κ = (4 * (C2 * (2 * C1 + 3 * C3) * κ)) / t := by ring
    rw [e, div_le_iff₀ t0] at κle
    linarith
  have hEt : |E - lam| ≤ t := by
    refine hE.trans ?_
    rw [div_le_iff₀ C0]
    have : t * C = 1 + t * (4 * C2 * (C1 + 2 * C3)) + t * (4 * C2 * (2 * C1 + 3 * C3) / t) + t * (4 * C2) := by rw [hCdef]; field_simp; ring
    have q1 : 0 ≤ t * (4 * C2 * (C1 + 2 * C3)) := by positivity
    have q2 : 0 ≤ t * (4 * C2 * (2 * C1 + 3 * C3) / t) := by positivity
    have q3 : 0 ≤ t * (4 * C2) := by positivity
    linarith
  have bnd1 : ∀ F, |F - lam| ≤ t → |F| ≤ M + 1 := by
    intro F hF
    have : F = lam + (F - lam) := by ring
    rw [this]; exact (abs_add_le _ _).trans (by linarith)
  set L := pr left with hL
  set R := pr right with hR
  set N := sz L * sz R with hN
  have N0 : 0 < N := by positivity
  obtain ⟨f, df, hfam⟩ := exists_family hM ok L
  have hab : dmin ≤ dmax := (chn_range ok.chn ok.pos).1
  -- computed against exact
  have nr : ∀ F, |F - lam| ≤ t → ∃ err, (constructOf eps eta vs dmin dmax r).matchingError pi F left right useH = .ok err ∧
      |err.1 - (df F dmax * R.1 - R.2 * f F dmax)| ≤ C1 * κ * N := by
    intro F hF
    have hF1 := bnd1 F hF
    obtain ⟨z1, z2, z3⟩ := hfam F hF1
    obtain ⟨yR, dyR, r1, r2, r3⟩ := exists_right (fit_okMesh hf1 hF1) R
    obtain ⟨err, h1, h2⟩ := near eps σ τ ε eta vs W dmin dmax H F pi r useH left right (f F) (df F) yR dyR hf1 he hv hε hε1 (by linarith) hF1 hm z1 z2 z3 r1 r2 r3
    refine ⟨err, h1, ?_⟩
    have h3 := h2 dmax ⟨hab, le_rfl⟩
    rw [r2, r3] at h3
    exact h3
  have zz : |lam - lam| ≤ t := by rw [sub_self, abs_zero]; exact t0.le
  obtain ⟨v1, v2, v3⟩ := hfam lam (bnd1 lam zz)
  have vz : df lam dmax * R.1 - R.2 * f lam dmax = 0 := zero_of_isEigenvalue (K := 3 * M) (by linarith) (ok.okMesh hM (bnd1 lam zz)) heig v1 v2 v3
  have zv : sz (f lam dmin, df lam dmin) = sz L := by rw [v2, v3]
  obtain ⟨s, hs1, hs⟩ := sens W dmin dmax lam r.sectors R (f lam) (df lam) ok hlam szR (by rw [zv]; exact szL) v1 (by
      rw [vz, abs_zero, mul_zero, zv]; exact N0.le)
  rw [zv] at hs
  have hsF : ∀ F, |F - lam| ≤ t → (lam ≤ F → N * (F - lam) ≤ C2 * (s * (df F dmax * R.1 - R.2 * f F dmax))) ∧
      (F ≤ lam → N * (lam - F) ≤ C2 * (-s * (df F dmax * R.1 - R.2 * f F dmax))) := by
    intro F hF
    obtain ⟨g1, g2, g3⟩ := hfam F (bnd1 F hF)
    exact hs F _ _ (hF.trans tρ) (by rw [vz, abs_zero, mul_zero]; positivity) g1 (by rw [g2, v2]) (by rw [g3, v3])
  -- the comparison energy on the other side of the eigenvalue
  obtain ⟨E', hE't, hΔ, hsep⟩ : ∃ E', |E' - lam| ≤ t ∧ |E' - E| ≤ 2 * t ∧
      N * t ≤ C2 * |(df E' dmax * R.1 - R.2 * f E' dmax) - (df E dmax * R.1 - R.2 * f E dmax)| := by
    obtain ⟨u1, u2⟩ := abs_le.mp hEt
    have sgn : ∀ z : ℝ, s * z ≤ |z| := fun z => (le_abs_self _).trans (by rw [abs_mul, hs1, one_mul])
    rcases le_total lam E with hle | hle
    · have ht' : |lam - t - lam| ≤ t := by rw [show lam - t - lam = -t by ring, abs_neg, abs_of_pos t0]
      refine ⟨lam - t, ht', ?_, ?_⟩
      · rw [abs_le]; constructor <;> linarith
      · have a1 := (hsF (lam - t) ht').2 (by linarith)
        have a2 := (hsF E hEt).1 hle
        have a3 : 0 ≤ N * (E - lam) := mul_nonneg N0.le (by linarith)
        have a4 := sgn ((df E dmax * R.1 - R.2 * f E dmax) - (df (lam - t) dmax * R.1 - R.2 * f (lam - t) dmax))
        rw [abs_sub_comm] at a4
        have a5 := mul_le_mul_of_nonneg_left a4 (show 0 ≤ C2 by linarith)
        linarith
    · have ht' : |lam + t - lam| ≤ t := by rw [show lam + t - lam = t by ring, abs_of_pos t0]
      refine ⟨lam + t, ht', ?_, ?_⟩
      · rw [abs_le]; constructor <;> linarith
      · have a1 := (hsF (lam + t) ht').1 (by linarith)
        have a2 := (hsF E hEt).2 hle
        have a3 : 0 ≤ N * (lam - E) := mul_nonneg N0.le (by linarith)
        have a4 := sgn ((df (lam + t) dmax * R.1 - R.2 * f (lam + t) dmax) - (df E dmax * R.1 - R.2 * f E dmax))
        have a5 := mul_le_mul_of_nonneg_left a4 (show 0 ≤ C2 by linarith)
        linarith
  have H16 : H ^ 16 + ε ≤ κ := by
    have : H ^ 16 ≤ H ^ ord useH := pow_le_pow_of_le_one hH0.le hf.small (by cases useH <;> simp [ord])
    rw [hκ]; linarith
  have rem : ∀ {δ : ℝ}, 0 ≤ δ → δ ≤ 2 → δ * (H ^ 16 + ε) ≤ δ * κ := fun h0 _ => mul_le_mul_of_nonneg_left H16 h0
  obtain ⟨err, he1, he2⟩ := nr E hEt
  obtain ⟨err', he1', he2'⟩ := nr E' hE't
  obtain ⟨el, hel1, hel2⟩ := nr lam zz
  have hE1 := bnd1 E hEt
  obtain ⟨m, m', k1, k2, k3, -⟩ := en eps σ τ ε eta vs W dmin dmax H E E' pi r useH left right hf1 he hv hε hε1 (by linarith) hE1 (bnd1 E' hE't) hm hl0 hr0
  obtain ⟨n, n', j1, j2, j3, -⟩ := en eps σ τ ε eta vs W dmin dmax H E lam pi r useH left right hf1 he hv hε hε1 (by linarith) hE1 (bnd1 lam zz) hm hl0 hr0
  rw [he1] at k1 j1
  rw [he1'] at k2
  rw [hel1] at j2
  cases k1; cases k2; cases j1; cases j2
  rw [vz, sub_zero] at hel2
  have ε' : ε ≤ κ := by rw [hκ]; linarith
  have low : N ≤ 4 * C2 * |err.2.1| := by
    refine deriv_lower N0 t0 (by linarith) (by linarith) κ0 he2 he2' hsep ?_ hΔ h6 h7
    refine k3.trans (mul_le_mul_of_nonneg_right (mul_le_mul_of_nonneg_left ?_ (by linarith)) N0.le)
    have a1 : (E' - E) ^ 2 ≤ 4 * t ^ 2 := by rw [← sq_abs]; nlinarith [abs_nonneg (E' - E)]
    have a2 := rem (abs_nonneg (E' - E)) (by linarith)
    have a3 : |E' - E| * κ ≤ 2 * κ := mul_le_mul_of_nonneg_right (by linarith) κ0
    linarith
  refine ⟨err, he1, ?_, ?_⟩
  · refine low.trans (mul_le_mul_of_nonneg_right ?_ (abs_nonneg _))
    rw [hCdef]; linarith
  · refine (newton_alg (x := E - lam) N0 (by linarith) (show 0 ≤ C3 by linarith) (show 0 < C2 by linarith) κ0 hel2 ?_ low).trans (mul_le_mul_of_nonneg_right ?_ (by positivity))
    · refine j3.trans (mul_le_mul_of_nonneg_right (mul_le_mul_of_nonneg_left ?_ (by linarith)) N0.le)
      have hx : |lam - E| ≤ 1 := by rw [abs_sub_comm]; linarith
      have a1 := rem (abs_nonneg (lam - E)) (by linarith)
      have a2 : |lam - E| * κ ≤ 1 * κ := mul_le_mul_of_nonneg_right hx κ0
      have a3 : (lam - E) ^ 2 = (E - lam) ^ 2 := by ring
      linarith
    · rw [hCdef]; linarith

end Verif.Solver
