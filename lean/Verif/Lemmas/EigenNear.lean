import Verif.Lemmas.Converge
import Verif.Lemmas.Sens
import Mathlib.Topology.Order.IntermediateValue

/-!
# The computed matching error and exact eigenvalues
-/
namespace Verif.Solver
open Verif.Mesh Verif.YT Verif.CalcT Verif.Propag Verif.Formulas Verif.Legendre Verif.Spec

theorem smoothOn_le {M N : ℝ} {W : ℝ → ℝ} {a b : ℝ} (h : SmoothOn M W a b) (hMN : M ≤ N) : SmoothOn N W a b := by
  obtain ⟨D, h0, h1, h2⟩ := h
  exact ⟨D, h0, h1, fun j hj x hx => (h2 j hj x hx).trans hMN⟩

theorem fit_le {eps M N H : ℝ} {W : Sec ℝ → ℝ → ℝ} {dmin dmax : ℝ} {secs : List (Sec ℝ)} (h : FitMesh eps M H W dmin dmax secs) (hMN : M ≤ N) :
    FitMesh eps N H W dmin dmax secs :=
  ⟨h.mesh, h.directed, h.eps_nonneg, h.wide, h.narrow, h.small, fun s hs => smoothOn_le (h.smooth s hs) hMN⟩

theorem fit_pos {eps M H : ℝ} {W : Sec ℝ → ℝ → ℝ} {dmin dmax : ℝ} {secs : List (Sec ℝ)} (h : FitMesh eps M H W dmin dmax secs) : 0 < H := by
  have h0 : 0 < secs.length := h.mesh.length_pos
  have h1 := h.wide _ (List.getElem_mem h0)
  have h2 := h.narrow _ (List.getElem_mem h0)
  have := h.eps_nonneg
  linarith

theorem fit_ok {eps M H : ℝ} {W : Sec ℝ → ℝ → ℝ} {dmin dmax : ℝ} {secs : List (Sec ℝ)} (h : FitMesh eps M H W dmin dmax secs)
    (h1 : dmax - dmin ≤ M) (h2 : 1 / M ≤ dmax - dmin) : Ok M W dmin secs dmax :=
  ⟨chn_of_tiling _ h.mesh.tiling, fun s hs => by have := h.wide s hs; have := h.eps_nonneg
                                                 linarith,
    fun s hs => (h.smooth s hs).continuousOn, fun s hs x hx => (h.smooth s hs).bound hx, h1, h2⟩

theorem fit_okMesh {eps M H E : ℝ} {W : Sec ℝ → ℝ → ℝ} {dmin dmax : ℝ} {secs : List (Sec ℝ)} (h : FitMesh eps M H W dmin dmax secs)
    (hE : |E| ≤ M) : OkMesh (2 * M) W E dmin secs dmax :=
  ⟨chn_of_tiling _ h.mesh.tiling, fun s hs => by have := h.wide s hs; have := h.eps_nonneg
                                                 linarith,
    fun s hs => (h.smooth s hs).continuousOn, fun s hs x hx => by
      have h1 := (h.smooth s hs).bound hx
      have h2 := abs_sub (W s x) E
      linarith⟩

theorem boundary_of_mem {secs : List (Sec ℝ)} {s : Sec ℝ} (h : s ∈ secs) : IsBoundary (bounds secs) s.min ∧ IsBoundary (bounds secs) s.max := by
  have : (s.min, s.max) ∈ bounds secs := List.mem_map_of_mem h
  exact ⟨⟨_, this, Or.inl rfl⟩, ⟨_, this, Or.inr rfl⟩⟩

theorem prod_near {g e ce a b a' b' s r : ℝ} (hg : 0 ≤ g) (he : 0 ≤ e) (he1 : e ≤ ce) (hs : 0 ≤ s) (hr : 0 ≤ r) (ha : |a| ≤ g * s) (hb : |b| ≤ g * r)
    (ha' : |a' - a| ≤ e * s) (hb' : |b' - b| ≤ e * r) : |a' * b' - a * b| ≤ e * (2 * g + ce) * (s * r) := by
  have e1 : a' * b' - a * b = (a' - a) * (b' - b) + (a' - a) * b + a * (b' - b) := by ring
  rw [e1]
  have h1 : |(a' - a) * (b' - b)| ≤ e * s * (e * r) := by rw [abs_mul]; exact mul_le_mul ha' hb' (abs_nonneg _) (by positivity)
  have h2 : |(a' - a) * b| ≤ e * s * (g * r) := by rw [abs_mul]; exact mul_le_mul ha' hb (abs_nonneg _) (by positivity)
  have h3 : |a * (b' - b)| ≤ g * s * (e * r) := by rw [abs_mul]; exact mul_le_mul ha hb' (abs_nonneg _) (by positivity)
  have h4 : e * s * (e * r) ≤ e * s * (ce * r) := mul_le_mul_of_nonneg_left (mul_le_mul_of_nonneg_right he1 hr) (by positivity)
  have h5 := abs_add_three ((a' - a) * (b' - b)) ((a' - a) * b) (a * (b' - b))
  have h6 : e * (2 * g + ce) * (s * r) = e * s * (ce * r) + e * s * (g * r) + g * s * (e * r) := by ring
  linarith

/-- **The computed matching error is close to the exact mismatch.** -/
theorem matching_near (M : ℝ) (hM : 1 ≤ M) : ∃ C : ℝ, 1 ≤ C ∧ ∀ (eps σ τ ε : ℝ) (eta : ℕ → ℝ → ℕ → ℝ) (vs : Sec ℝ → ℕ → ℝ) (W : Sec ℝ → ℝ → ℝ) (dmin dmax H E pi : ℝ) (r : BuildResult ℝ)
    (useH : Bool) (left right : Y ℝ) (yL dyL yR dyR : ℝ → ℝ),
    FitMesh eps M H W dmin dmax r.sectors → EtaWithin σ eta → CoeffsWithin τ W r.sectors vs → τ + r.sectors.length * σ ≤ ε → ε ≤ 1 →
    dmax - dmin ≤ M → |E| ≤ M → r.matchIndex < r.sectors.length →
    SolvesMesh W E r.sectors yL dyL → yL dmin = left.y → dyL dmin = left.dy →
    SolvesMesh W E r.sectors yR dyR → yR dmax = right.y → dyR dmax = right.dy →
    ∃ err, (constructOf eps eta vs dmin dmax r).matchingError pi E left right useH = .ok err ∧ ∀ x ∈ Set.Icc dmin dmax,
      |err.1 - (dyL x * yR x - dyR x * yL x)| ≤ C * (H ^ ord useH + ε) * (sz (pr left) * sz (pr right)) := by
  obtain ⟨C, hC, key⟩ := converge M hM
  set g := Real.exp (2 * M * M) * Real.exp (2 * M * M) with hg
  have hg1 : 1 ≤ Real.exp (2 * M * M) := Real.one_le_exp (by positivity)
  have hgg : 1 ≤ g := one_le_mul_of_one_le_of_one_le hg1 hg1
  refine ⟨2 * (C * (2 * g + 2 * C)), by nlinarith, ?_⟩
  intro eps σ τ ε eta vs W dmin dmax H E pi r useH left right yL dyL yR dyR hf he hv hε hε1 hd hE hm hL l1 l2 hR r1 r2
  have hH0 := fit_pos hf
  have ok := fit_okMesh hf hE
  have hab := (chn_range ok.chn ok.pos).1
  set P := constructOf eps eta vs dmin dmax r with hP
  obtain ⟨v0M, hsecs⟩ := construct_secs eps eta vs dmin dmax r
  rw [← hP] at hsecs
  have hlen : r.matchIndex < P.secs.length := by rw [hsecs, List.length_map]; exact hm
  have hmi : P.matchIndex = r.matchIndex := rfl
  set s := r.sectors[r.matchIndex] with hsd
  have hsm : s ∈ r.sectors := List.getElem_mem hm
  have hget : P.secs[P.matchIndex]? = some (sectorOf eps eta (vs s) v0M s) := by
    rw [hmi, List.getElem?_eq_getElem hlen]
    simp only [hsecs, List.getElem_map, hsd]
  have hmx : (sectorOf eps eta (vs s) v0M s).max = s.max := rfl
  set m := s.max with hmdef
  have rs := (chn_range ok.chn ok.pos).2 s hsm
  have ps := ok.pos s hsm
  have mI : m ∈ Set.Icc dmin dmax := ⟨by linarith, rs.2⟩
  have aI : dmin ∈ Set.Icc dmin dmax := ⟨le_rfl, hab⟩
  have bI : dmax ∈ Set.Icc dmin dmax := ⟨hab, le_rfl⟩
  have bm : IsBoundary (bounds r.sectors) m := (boundary_of_mem hsm).2
  have ba : IsBoundary (bounds r.sectors) dmin := by
    rw [← hf.mesh.first]; exact (boundary_of_mem (List.getElem_mem _)).1
  have bb : IsBoundary (bounds r.sectors) dmax := by
    rw [← hf.mesh.last]; exact (boundary_of_mem (List.getElem_mem _)).2
  obtain ⟨resL, eL, -, nL⟩ := key eps σ τ ε eta vs W dmin dmax H E pi r yL dyL useH dmin m left hf he hv hε hε1 hd hE hL aI mI
  obtain ⟨resR, eR, -, nR⟩ := key eps σ τ ε eta vs W dmin dmax H E pi r yR dyR useH dmax m right hf he hv hε hε1 hd hE hR bI mI
  have nL := nL ba bm
  have nR := nR bb bm
  have zL : sz (pr left - (yL dmin, dyL dmin)) = 0 := by rw [l1, l2]; simp [pr, sz]
  have zR : sz (pr right - (yR dmax, dyR dmax)) = 0 := by rw [r1, r2]; simp [pr, sz]
  have pL : sz (yL dmin, dyL dmin) = sz (pr left) := by rw [l1, l2]; rfl
  have pR : sz (yR dmax, dyR dmax) = sz (pr right) := by rw [r1, r2]; rfl
  rw [zL, pL, zero_add] at nL
  rw [zR, pR, zero_add] at nR
  have hpm : P.dmin = dmin := rfl
  have hpM : P.dmax = dmax := rfl
  refine ⟨(resL.1.dy * resR.1.y - resR.1.dy * resL.1.y,
      resL.1.dyE * resR.1.y + resL.1.dy * resR.1.yE - (resR.1.dyE * resL.1.y + resR.1.dy * resL.1.yE),
      resL.2 - resR.2), ?_, ?_⟩
  · unfold Prob.matchingError
    rw [hget]
    simp only [hmx, hpm, hpM]
    rw [eL, eR]
    rfl
  intro x hx
  -- the exact mismatch does not depend on the point
  have w1 := wronskR (hL.right ok) (hR.right ok) hx
  have w2 := wronskR (hL.right ok) (hR.right ok) mI
  have wx : dyL x * yR x - dyR x * yL x = dyL m * yR m - dyR m * yL m := by linarith [mul_comm (dyR x) (yL x), mul_comm (dyR m) (yL m)]
  rw [wx]
  have hx0 : ∀ t ∈ Set.Icc dmin dmax, Real.exp (2 * M * (t - dmin)) ≤ Real.exp (2 * M * M) := fun t ht =>
    Real.exp_le_exp.mpr (mul_le_mul_of_nonneg_left (by linarith [ht.2]) (by linarith))
  have gL : sz (yL m, dyL m) ≤ g * sz (pr left) := by
    have h1 := (mesh_growth (by linarith) ok hL m mI).1
    rw [pL] at h1
    refine h1.trans (mul_le_mul_of_nonneg_right ((hx0 m mI).trans ?_) (sz_nonneg _))
    rw [hg]; exact le_mul_of_one_le_left (by linarith) hg1
  have gR : sz (yR m, dyR m) ≤ g * sz (pr right) := by
    have h1 := (mesh_growth (by linarith) ok hR m mI).1
    have h2 := (mesh_growth (by linarith) ok hR dmax bI).2
    rw [pR] at h2
    rw [hg, mul_assoc]
    refine h1.trans (mul_le_mul (hx0 m mI) (h2.trans (mul_le_mul_of_nonneg_right (hx0 dmax bI) (sz_nonneg _))) (sz_nonneg _) (by linarith))
  set e := C * (H ^ ord useH + ε) with hedef
  have hε0 : 0 ≤ ε := by
    have h1 := (hv s hsm).nonneg
    have h2 := mul_nonneg (Nat.cast_nonneg (α := ℝ) r.sectors.length) he.nonneg
    linarith
  have e0 : 0 ≤ e := by positivity
  have eC : e ≤ 2 * C := by
    have : H ^ ord useH ≤ 1 := pow_le_one₀ hH0.le hf.small
    have : H ^ ord useH + ε ≤ 2 := by
      linarith
    rw [hedef]; nlinarith
  rw [← mul_assoc] at nL nR
  have nL1 := (le_sz1 _).trans nL
  have nL2 := (le_sz2 _).trans nL
  have nR1 := (le_sz1 _).trans nR
  have nR2 := (le_sz2 _).trans nR
  simp only [pr, Prod.fst_sub, Prod.snd_sub] at nL1 nL2 nR1 nR2
  have gL1 := (le_sz1 _).trans gL
  have gL2 := (le_sz2 _).trans gL
  have gR1 := (le_sz1 _).trans gR
  have gR2 := (le_sz2 _).trans gR
  have g0 : 0 ≤ g := by linarith
  have q1 := prod_near g0 e0 eC (sz_nonneg _) (sz_nonneg _) gL2 gR1 nL2 nR1
  have q2 := prod_near g0 e0 eC (sz_nonneg _) (sz_nonneg _) gR2 gL1 nR2 nL1
  have q3 : resL.1.dy * resR.1.y - resR.1.dy * resL.1.y - (dyL m * yR m - dyR m * yL m) =
    (resL.1.dy * resR.1.y - dyL m * yR m) - (resR.1.dy * resL.1.y - dyR m * yL m) := by ring
  change |resL.1.dy * resR.1.y - resR.1.dy * resL.1.y - (dyL m * yR m - dyR m * yL m)| ≤ _
  rw [q3]
  have q4 := abs_sub (resL.1.dy * resR.1.y - dyL m * yR m) (resR.1.dy * resL.1.y - dyR m * yL m)
  have q5 : 2 * (C * (2 * g + 2 * C)) * (H ^ ord useH + ε) * (sz (pr left) * sz (pr right)) = 2 * (e * (2 * g + 2 * C) * (sz (pr left) * sz (pr right))) := by
    rw [hedef]; ring
  rw [q5]
  have q6 : e * (2 * g + 2 * C) * (sz (pr right) * sz (pr left)) = e * (2 * g + 2 * C) * (sz (pr left) * sz (pr right)) := by ring
  unfold pr at q1 q2 q6 ⊢
  linarith only [q1, q2, q4, q6]

/-- Solutions with values `L` at the left end point, for every energy. -/
theorem exists_family {M : ℝ} (hM : 1 ≤ M) {W : Sec ℝ → ℝ → ℝ} {a b : ℝ} {l : List (Sec ℝ)} (h : Ok M W a l b) (L : ℝ × ℝ) :
    ∃ f df : ℝ → ℝ → ℝ, ∀ E, |E| ≤ M + 1 → SolvesMesh W E l (f E) (df E) ∧ f E a = L.1 ∧ df E a = L.2 := by
  have : ∀ E : ℝ, ∃ y dy : ℝ → ℝ, |E| ≤ M + 1 → SolvesMesh W E l y dy ∧ y a = L.1 ∧ dy a = L.2 := by
    intro E
    by_cases hE : |E| ≤ M + 1
    · obtain ⟨y, dy, h1⟩ := mesh_exists (h.okMesh hM hE) L
      exact ⟨y, dy, fun _ => h1⟩
    · exact ⟨fun _ => 0, fun _ => 0, fun h => absurd h hE⟩
  choose f df hf using this
  exact ⟨f, df, hf⟩

/-- The exact mismatch at the right end point is continuous in the energy. -/
theorem mismatch_continuousOn {M : ℝ} (hM : 1 ≤ M) {W : Sec ℝ → ℝ → ℝ} {a b : ℝ} {l : List (Sec ℝ)} (h : Ok M W a l b) {L : ℝ × ℝ} (R : ℝ × ℝ)
    {f df : ℝ → ℝ → ℝ} (hf : ∀ E, |E| ≤ M + 1 → SolvesMesh W E l (f E) (df E) ∧ f E a = L.1 ∧ df E a = L.2) :
    ContinuousOn (fun E => df E b * R.1 - R.2 * f E b) {E | |E| ≤ M + 1} := by
  have hG := one_le_G hM
  have hab : a ≤ b := (chn_range h.chn h.pos).1
  have bb : b ∈ Set.Icc a b := ⟨hab, le_rfl⟩
  have lip : ∀ E F, |E| ≤ M + 1 → |F| ≤ M + 1 → sz ((f F b, df F b) - (f E b, df E b)) ≤ |F - E| * (G M * sz L * M * G M) := by
    intro E F hE hF
    obtain ⟨e1, e2, e3⟩ := hf E hE
    obtain ⟨f1, f2, f3⟩ := hf F hF
    have := energy_dep (w := glue W l) (E := E) (F := F) (K := 3 * M) (B := G M * sz L) (by linarith) (mul_nonneg (by linarith) (sz_nonneg _))
      (glue_bound (h.okMesh hM hE)) (e1.right (h.okMesh hM hE)) (f1.right (h.okMesh hM hF)) (by rw [e2, f2]) (by rw [e3, f3])
      (fun x hx => by
        have := (le_sz1 _).trans (h.growth hM hF f1 (x := x) ⟨hx.1, hx.2.le⟩).1
        rwa [f2, f3] at this) bb
    have e : Real.exp (3 * M * (b - a)) ≤ G M := Real.exp_le_exp.mpr (mul_le_mul_of_nonneg_left h.short (by linarith))
    have s0 := sz_nonneg L
    have b0 : 0 ≤ b - a := by linarith
    refine this.trans ?_
    calc |F - E| * (G M * sz L) * (b - a) * Real.exp (3 * M * (b - a)) ≤ |F - E| * (G M * sz L) * M * G M := by
          apply mul_le_mul (mul_le_mul_of_nonneg_left h.short (by positivity)) e (Real.exp_pos _).le (by positivity)
      _ = _ := by ring
  set c := G M * sz L * M * G M
  have c0 : 0 ≤ c := by
    have := sz_nonneg L
    positivity
  have lip' : ∀ E F, |E| ≤ M + 1 → |F| ≤ M + 1 → |(df F b * R.1 - R.2 * f F b) - (df E b * R.1 - R.2 * f E b)| ≤ c * (|R.1| + |R.2|) * |F - E| := by
    intro E F hE hF
    have h0 := lip E F hE hF
    have h1 := (le_sz1 _).trans h0
    have h2 := (le_sz2 _).trans h0
    simp only [Prod.fst_sub, Prod.snd_sub] at h1 h2
    have e : (df F b * R.1 - R.2 * f F b) - (df E b * R.1 - R.2 * f E b) = (df F b - df E b) * R.1 - R.2 * (f F b - f E b) := by ring
    rw [e]
    refine (abs_sub _ _).trans ?_
    rw [abs_mul, abs_mul]
    have k1 := mul_le_mul_of_nonneg_right h2 (abs_nonneg R.1)
    have k2 := mul_le_mul_of_nonneg_left h1 (abs_nonneg R.2)
    have k3 : c * (|R.1| + |R.2|) * |F - E| = |F - E| * c * |R.1| + |R.2| * (|F - E| * c) := by ring
    linarith
  have k0 : 0 ≤ c * (|R.1| + |R.2|) := by positivity
  refine LipschitzOnWith.continuousOn (K := ⟨_, k0⟩) (LipschitzOnWith.of_dist_le_mul fun F hF E hE => ?_)
  rw [Real.dist_eq, Real.dist_eq]
  exact lip' E F hE hF

/-- A zero of the mismatch is an eigenvalue. -/
theorem isEigenvalue_of_zero {M : ℝ} (hM : 1 ≤ M) {W : Sec ℝ → ℝ → ℝ} {a b E : ℝ} {l : List (Sec ℝ)} (h : Ok M W a l b) (hE : |E| ≤ M + 1) {L R : ℝ × ℝ} (hL : 0 < sz L)
    {y dy : ℝ → ℝ} (hy : SolvesMesh W E l y dy) (i1 : y a = L.1) (i2 : dy a = L.2) (hz : dy b * R.1 - R.2 * y b = 0) : IsEigenvalue W l a b L R E := by
  refine ⟨y, dy, hy, ?_, by rw [i1, i2]; ring, by linarith [mul_comm R.2 (y b)]⟩
  by_contra hne
  push Not at hne
  have hab : a ≤ b := (chn_range h.chn h.pos).1
  have ov := h.overlap hM hE hE hy hy rfl rfl (by rw [sub_self, abs_zero, zero_mul]; have := (ell_facts hM).1; positivity)
  have e : (∫ t in a..b, y t * y t) = ∫ t in a..b, (0 : ℝ) := by
    apply intervalIntegral.integral_congr
    intro t ht
    rw [Set.uIcc_of_le hab] at ht
    simp only [hne t ht, mul_zero]
  rw [e, intervalIntegral.integral_zero, i1, i2] at ov
  have := (ell_facts hM).1
  have : 0 < ell M ^ 3 / 96 * sz (L.1, L.2) ^ 2 := by
    have hL' : 0 < sz (L.1, L.2) := hL
    positivity
  linarith

/-- At an eigenvalue the mismatch is zero. -/
theorem zero_of_isEigenvalue {K : ℝ} (hK : 1 ≤ K) {W : Sec ℝ → ℝ → ℝ} {a b E : ℝ} {l : List (Sec ℝ)} (h : OkMesh K W E a l b) {L R : ℝ × ℝ}
    (he : IsEigenvalue W l a b L R E) {y dy : ℝ → ℝ} (hy : SolvesMesh W E l y dy) (i1 : y a = L.1) (i2 : dy a = L.2) : dy b * R.1 - R.2 * y b = 0 := by
  obtain ⟨w, dw, hw, ⟨x, hx, hne⟩, e1, e2⟩ := he
  have hab : a ≤ b := (chn_range h.chn h.pos).1
  have bb : b ∈ Set.Icc a b := ⟨hab, le_rfl⟩
  have wr := wronskR (hy.right h) (hw.right h) bb
  rw [i1, i2] at wr
  have wz : dy b * w b = y b * dw b := by linarith [mul_comm (dw a) L.1, mul_comm (w a) L.2]
  by_cases q : w b = 0
  · by_cases q' : dw b = 0
    · exfalso
      exact hne (mesh_zero hK h hw bb (by rw [q, q']; simp [sz]) hx).1
    · rw [q] at wz e2
      have h1 : y b = 0 := (mul_eq_zero.mp (by linarith : y b * dw b = 0)).resolve_right q'
      have h2 : R.1 = 0 := (mul_eq_zero.mp (by linarith : dw b * R.1 = 0)).resolve_left q'
      rw [h1, h2]; ring
  · have : (dy b * R.1 - R.2 * y b) * w b = 0 := by
      linear_combination R.1 * wz - y b * e2
    exact (mul_eq_zero.mp this).resolve_right q

/-- The solution through the right boundary values. -/
theorem exists_right {K : ℝ} {W : Sec ℝ → ℝ → ℝ} {a b E : ℝ} {l : List (Sec ℝ)} (h : OkMesh K W E a l b) (R : ℝ × ℝ) :
    ∃ y dy, SolvesMesh W E l y dy ∧ y b = R.1 ∧ dy b = R.2 :=
  mesh_exists_at h ⟨(chn_range h.chn h.pos).1, le_rfl⟩ R

end Verif.Solver
