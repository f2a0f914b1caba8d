import Verif.Lemmas.AngleCount
import Verif.Props.NewtonConverge

/-!
# C89, C90: the Prüfer angle and the index of a computed eigenvalue

C74–C76 are about piecewise constant potentials, for which the code propagates exactly. Here the potential has sixteen bounded
derivatives on every sector (jumps at mesh points allowed), and the η functions and coefficients are accurate to `ε`.
-/
namespace Verif.Solver
open Verif Verif.Prufer Verif.YT Verif.CalcT Verif.Mesh Verif.Propag Verif.Formulas Verif.Legendre Verif.Spec Verif.Search
open Real (pi)

/-- The mesh is fine enough for the angle at energy `E`: sectors are narrow, wider than the inaccuracy of the ingredients, and `E` is
not in the narrow band just above the mean `vs s 0` of the potential on a sector, where the code may add `π` too much (it assumes there
that the angle cannot decrease, which rounding can violate). `k` is the order of the method. -/
structure AngleFit (C H ε : ℝ) (k : ℕ) (vs : Sec ℝ → ℕ → ℝ) (secs : List (Sec ℝ)) (E : ℝ) : Prop where
  fine : C * H ≤ 1
  accurate : ∀ s ∈ secs, C * ε ≤ s.max - s.min
  clear : ∀ s ∈ secs, E ≤ vs s 0 ∨ vs s 0 + C * (H ^ k + ε / (s.max - s.min)) ≤ E

theorem AngleFit.mono {C D H ε : ℝ} {k : ℕ} {vs : Sec ℝ → ℕ → ℝ} {secs : List (Sec ℝ)} {E : ℝ} (h : AngleFit D H ε k vs secs E) (hCD : C ≤ D) (hH : 0 ≤ H)
    (hε : 0 ≤ ε) (hw : ∀ s ∈ secs, s.min < s.max) : AngleFit C H ε k vs secs E where
  fine := (mul_le_mul_of_nonneg_right hCD hH).trans h.fine
  accurate s hs := (mul_le_mul_of_nonneg_right hCD hε).trans (h.accurate s hs)
  clear s hs := (h.clear s hs).imp id (fun h' => by
    have : 0 ≤ H ^ k + ε / (s.max - s.min) := add_nonneg (pow_nonneg hH _) (div_nonneg hε (by linarith [hw s hs]))
    have := mul_le_mul_of_nonneg_right hCD this
    linarith)

theorem accurate_nonneg {ε : ℝ} {W : Sec ℝ → ℝ → ℝ} {secs : List (Sec ℝ)} {eta : ℕ → ℝ → ℕ → ℝ} {vs : Sec ℝ → ℕ → ℝ} (h : AccurateTo ε W secs eta vs)
    (h0 : 0 < secs.length) : 0 ≤ ε := by
  obtain ⟨-, σ, τ, he, hv, hε⟩ := h
  have h1 := (hv _ (List.getElem_mem h0)).nonneg
  have h2 := mul_nonneg (Nat.cast_nonneg (α := ℝ) secs.length) he.nonneg
  linarith

/-- **C89.** For every bound `M` there is a constant `C` such that for every potential, mesh and energy within the bounds (`AngleFit`), every
exact solution `y` at the energy `E` with continuous Prüfer angle `Θ` (of `y' + i·scaling·y`), and every pair of mesh points `a`, `b`:
`propagate` from the exact values at `a` returns an angle within `C (H^16 + ε)` of `Θ(b)`, if `Θ(a)` is normalised as the code does
(`[0, π)` to the right, `(0, π]` to the left). -/
theorem C89_angle_converges (M : ℝ) (hM : 1 ≤ M) : ∃ C : ℝ, 1 ≤ C ∧ ∀ (eps ε : ℝ) (eta : ℕ → ℝ → ℕ → ℝ) (vs : Sec ℝ → ℕ → ℝ) (W : Sec ℝ → ℝ → ℝ) (dmin dmax H E : ℝ)
    (r : BuildResult ℝ) (m : Sec ℝ) (y dy Θ : ℝ → ℝ) (useH : Bool) (a b : ℝ) (c : Y ℝ),
    FitMesh eps M H W dmin dmax r.sectors → AccurateTo ε W r.sectors eta vs → dmax - dmin ≤ M → |E| ≤ M → r.sectors[r.matchIndex]? = some m →
    AngleFit C H ε (if useH then 16 else 14) vs r.sectors E →
    SolvesMesh W E r.sectors y dy → ContAngle dmin dmax (scaling (vs m 0) E) y dy Θ →
    c.y = y a → c.dy = dy a → (c.y ≠ 0 ∨ c.dy ≠ 0) →
    a ∈ Set.Icc dmin dmax → b ∈ Set.Icc dmin dmax → IsBoundary (bounds r.sectors) a → IsBoundary (bounds r.sectors) b →
    (a ≤ b → 0 ≤ Θ a ∧ Θ a < pi) → (b < a → 0 < Θ a ∧ Θ a ≤ pi) →
    ∃ res, (constructOf eps eta vs dmin dmax r).propagate pi E c a b useH = .ok res ∧
      |res.2 - Θ b| ≤ C * (H ^ (if useH then 16 else 14) + ε) := by
  obtain ⟨C, hC, key⟩ := angle_converge M hM
  refine ⟨C, hC, ?_⟩
  intro eps ε eta vs W dmin dmax H E r m y dy Θ useH a b c hf ⟨hε1, σ, τ, he, hv, hε⟩ hd hE hm ha hy hΘ c1 c2 hc ma mb ba bb na nb
  obtain ⟨res, h1, h2⟩ := key eps σ τ ε eta vs W dmin dmax H E E r m y dy Θ useH a b 1 c hf he hv hε hε1 hd hE hE hm ha.fine ha.accurate
    (fun s hs hlt => by
      rcases ha.clear s hs with h | h
      · exact absurd hlt (not_lt.mpr h)
      · exact le_sub_iff_add_le'.mpr h)
    (by simp) hy hΘ one_ne_zero (by rw [c1, one_mul]) (by rw [c2, one_mul]) hc ma mb ba bb na nb
  exact ⟨res, h1, by simpa [ord] using h2⟩

/-- **C89.** The angle counts zeros: unless `y` nearly vanishes at `b` (relative to `|y(b)| + |y'(b)|`), propagating the values of an exact
solution `y` to the right gives an angle with `⌊θ/π⌋` the number of zeros of `y` in `(a, b]`; to the left, `1 - ⌈θ/π⌉` is the number of zeros
in `[b, a)`. -/
theorem C89_zero_count (M : ℝ) (hM : 1 ≤ M) : ∃ C : ℝ, 1 ≤ C ∧ ∀ (eps ε : ℝ) (eta : ℕ → ℝ → ℕ → ℝ) (vs : Sec ℝ → ℕ → ℝ) (W : Sec ℝ → ℝ → ℝ) (dmin dmax H E : ℝ)
    (r : BuildResult ℝ) (y dy : ℝ → ℝ) (useH : Bool) (a b : ℝ) (c : Y ℝ),
    FitMesh eps M H W dmin dmax r.sectors → AccurateTo ε W r.sectors eta vs → dmax - dmin ≤ M → |E| ≤ M → r.matchIndex < r.sectors.length →
    AngleFit C H ε (if useH then 16 else 14) vs r.sectors E →
    SolvesMesh W E r.sectors y dy → c.y = y a → c.dy = dy a → (c.y ≠ 0 ∨ c.dy ≠ 0) →
    a ∈ Set.Icc dmin dmax → b ∈ Set.Icc dmin dmax → IsBoundary (bounds r.sectors) a → IsBoundary (bounds r.sectors) b →
    C * (H ^ (if useH then 16 else 14) + ε) * (|y b| + |dy b|) < |y b| →
    ∃ res, (constructOf eps eta vs dmin dmax r).propagate pi E c a b useH = .ok res ∧
      (a ≤ b → ({x ∈ Set.Ioc a b | y x = 0} : Set ℝ).Finite ∧ (({x ∈ Set.Ioc a b | y x = 0} : Set ℝ).ncard : ℤ) = ⌊res.2 / pi⌋) ∧
      (b < a → ({x ∈ Set.Ico b a | y x = 0} : Set ℝ).Finite ∧ (({x ∈ Set.Ico b a | y x = 0} : Set ℝ).ncard : ℤ) = 1 - ⌈res.2 / pi⌉) := by
  obtain ⟨C, hC, key⟩ := C89_angle_converges M hM
  refine ⟨C, hC, ?_⟩
  intro eps ε eta vs W dmin dmax H E r y dy useH a b c hf hacc hd hE hm ha hy c1 c2 hc ma mb ba bb hbig
  have hpi := Real.pi_pos
  obtain ⟨m, hm⟩ : ∃ m, r.sectors[r.matchIndex]? = some m := ⟨_, List.getElem?_eq_getElem hm⟩
  have hs := scaling_pos (vs m 0) E
  have c1d := mesh_c1 hM hf hE hy ma (by rwa [← c1, ← c2])
  have hlt : dmin < dmax := by
    have := fit_okMesh hf hE
    have h0 := hf.mesh.length_pos
    have := (chn_range this.chn this.pos).2 _ (List.getElem_mem h0)
    have := (fit_okMesh hf hE).pos _ (List.getElem_mem h0)
    linarith
  obtain ⟨θ, hθ, n1, n2⟩ := exists_normal_angle (scaling (vs m 0) E * y a) (dy a) a b
  obtain ⟨Θ, hΘ, e⟩ := contAngle_exists hlt hs c1d ma hθ
  obtain ⟨res, r1, r2⟩ := key eps ε eta vs W dmin dmax H E r m y dy Θ useH a b c hf hacc hd hE hm ha hy hΘ c1 c2 hc ma mb ba bb (by rwa [e]) (by rwa [e])
  have hno : ∀ k : ℤ, ¬ |Θ b - k * pi| ≤ C * (H ^ (if useH then 16 else 14) + ε) := fun k hk =>
    absurd (angle_axis (scaling_one _ _) (hΘ.angle b mb) hk) (not_le.mpr hbig)
  refine ⟨res, r1, fun hab => ?_, fun hab => ?_⟩
  · obtain ⟨f1, f2⟩ := count_Ioc hs c1d hΘ ma mb hab
    refine ⟨f1, ?_⟩
    have : ⌊Θ a / pi⌋ = 0 := by
      rw [Int.floor_eq_zero_iff, e]
      exact ⟨div_nonneg (n1 hab).1 hpi.le, (div_lt_one hpi).mpr (n1 hab).2⟩
    rw [f2, this, floor_near r2 hno, sub_zero]
  · obtain ⟨f1, f2⟩ := count_Ico hs c1d hΘ mb ma hab.le
    refine ⟨f1, ?_⟩
    have : ⌈Θ a / pi⌉ = 1 := by
      rw [Int.ceil_eq_iff, e]
      constructor
      · push_cast; rw [sub_self]; exact div_pos (n2 hab).1 hpi
      · push_cast; exact (div_le_one hpi).mpr (n2 hab).2
    rw [f2, this, ceil_near r2 hno]

/-- **C89**, why the band just above a sector's mean is excluded: for `vs[0] < E` the code takes every angle difference over a sector to be
non-negative. Whenever the angle of the computed values decreases, by however little (`θ₀ - θ₁`, which rounding does as soon as the exact
increase is below it), the result is too large by at least `π`. -/
theorem C89_decrease_adds_pi (v0M v0 E δ θ0 θ1 : ℝ) (hE : v0 < E) (hδ : 0 ≤ δ) (y0 y1 : Y ℝ) (h0 : ¬ (y0.y = 0 ∧ y0.dy = 0)) (h1 : ¬ (y1.y = 0 ∧ y1.dy = 0))
    (a0 : IsAngle θ0 (scaling v0M E * y0.y) y0.dy) (a1 : IsAngle θ1 (scaling v0M E * y1.y) y1.dy) (hlt : θ1 < θ0) :
    (θ1 - θ0) + pi ≤ pruferHelper v0M v0 E δ y0 y1 := by
  have hpi := Real.pi_pos
  have hs := scaling_pos v0M E
  have hp := C40_prufer_nonneg v0M v0 E δ hE hδ y0 y1
  have ha := prufer_angle v0M v0 E δ y0 y1 h0 θ0 a0
  obtain ⟨k, hk⟩ := a1.unique ha (fun h => h1 ⟨(mul_eq_zero.mp h.1).resolve_left hs.ne', h.2⟩)
  have hk1 : 0 < k := by
    have : ((0 : ℤ) : ℝ) * pi < (k : ℝ) * pi := by push_cast; linarith
    exact_mod_cast lt_of_mul_lt_mul_right this hpi.le
  have : (1 : ℝ) * pi ≤ k * pi := mul_le_mul_of_nonneg_right (by exact_mod_cast hk1) hpi.le
  linarith

/-- The decrease can be as small as one likes: from `(y, y') = (1, 0)` to `(1, t)`, `t > 0`. -/
example (t : ℝ) (ht : 0 < t) : pi - Real.arctan t ≤ pruferHelper 0 0 1 1 ⟨1, 0, 0, 0⟩ ⟨1, t, 0, 0⟩ := by
  have hs : scaling 0 1 = 1 := by norm_num [scaling]
  have := C89_decrease_adds_pi 0 0 1 1 (pi / 2) (pi / 2 - Real.arctan t) (by norm_num) (by norm_num) ⟨1, 0, 0, 0⟩ ⟨1, t, 0, 0⟩ (by simp) (by simp)
    (by rw [hs]; simp [IsAngle]) (by
      rw [hs]; simp only [IsAngle, Real.sin_pi_div_two_sub, Real.cos_pi_div_two_sub, Real.sin_arctan, Real.cos_arctan]; ring)
    (by linarith [Real.arctan_pos.mpr ht])
  linarith

/-- Two non-zero parallel columns. -/
theorem parallel {u v p q : ℝ} (h1 : p ≠ 0 ∨ q ≠ 0) (h2 : u ≠ 0 ∨ v ≠ 0) (h : u * q = v * p) : ∃ κ : ℝ, κ ≠ 0 ∧ p = κ * u ∧ q = κ * v := by
  by_cases hu : u = 0
  · have hv : v ≠ 0 := h2.resolve_left (not_not.mpr hu)
    have hp : p = 0 := by rw [hu, zero_mul] at h; exact (mul_eq_zero.mp h.symm).resolve_left hv
    have hq : q ≠ 0 := h1.resolve_left (not_not.mpr hp)
    exact ⟨q / v, div_ne_zero hq hv, by rw [hp, hu, mul_zero], by field_simp⟩
  · have hp : p ≠ 0 := by
      intro hp
      rw [hp, mul_zero] at h
      have := (mul_eq_zero.mp h).resolve_left hu
      exact h1.elim (fun q => q hp) (fun q => q this)
    exact ⟨p / u, div_ne_zero hp hu, by field_simp, by field_simp; linarith⟩

/-- **C90.** For every bound `M` there is a constant `C` such that, if `λ` is an exact eigenvalue with eigenfunction `y`, the angle component
of `matchingError` at every energy `E` near `λ` (`C |E - λ| ≤ 1`) is within `C (H^16 + ε + |E - λ|)` of `N π`, with `N` the number of zeros of
the eigenfunction in the open domain. The mesh needs a sector to the right of the match point. -/
theorem C90_index (M : ℝ) (hM : 1 ≤ M) : ∃ C : ℝ, 1 ≤ C ∧ ∀ (eps ε : ℝ) (eta : ℕ → ℝ → ℕ → ℝ) (vs : Sec ℝ → ℕ → ℝ) (W : Sec ℝ → ℝ → ℝ)
    (dmin dmax H lam E : ℝ) (r : BuildResult ℝ) (useH : Bool) (left right : Y ℝ) (y dy : ℝ → ℝ),
    FitMesh eps M H W dmin dmax r.sectors → AccurateTo ε W r.sectors eta vs → dmax - dmin ≤ M → |lam| ≤ M → |E| ≤ M →
    r.matchIndex + 1 < r.sectors.length → (left.y ≠ 0 ∨ left.dy ≠ 0) → (right.y ≠ 0 ∨ right.dy ≠ 0) →
    SolvesMesh W lam r.sectors y dy → (∃ x ∈ Set.Icc dmin dmax, y x ≠ 0) →
    y dmin * left.dy = dy dmin * left.y → y dmax * right.dy = dy dmax * right.y →
    AngleFit C H ε (if useH then 16 else 14) vs r.sectors E → C * |E - lam| ≤ 1 →
    ({x ∈ Set.Ioo dmin dmax | y x = 0} : Set ℝ).Finite ∧
    ∃ err, (constructOf eps eta vs dmin dmax r).matchingError pi E left right useH = .ok err ∧
      |err.2.2 - ({x ∈ Set.Ioo dmin dmax | y x = 0} : Set ℝ).ncard * pi| ≤ C * (H ^ (if useH then 16 else 14) + ε + |E - lam|) := by
  obtain ⟨C, hC, key⟩ := angle_converge M hM
  refine ⟨2 * C, by linarith, ?_⟩
  intro eps ε eta vs W dmin dmax H lam E r useH left right y dy hf hacc hd hlam hE hmi hl hr hy hne el er ha hEl
  have hε0 := accurate_nonneg hacc hf.mesh.length_pos
  have hH0 := (fit_pos hf).le
  have ok := fit_okMesh hf hlam
  have ha := ha.mono (show C ≤ 2 * C by linarith) hH0 hε0 ok.pos
  have hEl : C * |E - lam| ≤ 1 := by
    have := mul_nonneg (by linarith : 0 ≤ C) (abs_nonneg (E - lam))
    linarith
  obtain ⟨hε1, σ, τ, he, hv, hε⟩ := hacc
  have hm0 : r.matchIndex < r.sectors.length := by omega
  have hmm : r.sectors[r.matchIndex]? = some r.sectors[r.matchIndex] := List.getElem?_eq_getElem hm0
  set m := r.sectors[r.matchIndex] with hm
  have hs := scaling_pos (vs m 0) E
  obtain ⟨x0, hx0, hne⟩ := hne
  have c1d := mesh_c1 hM hf hlam hy hx0 (Or.inl hne)
  have hmem : m ∈ r.sectors := List.getElem_mem hm0
  have rg := (chn_range ok.chn ok.pos).2
  have rgm := rg m hmem
  have hmp := ok.pos m hmem
  have hlt : dmin < dmax := by linarith
  have hmax : m.max < dmax := by
    have h1 := hf.mesh.max_le_min (i := r.matchIndex) (j := r.matchIndex + 1) (by omega) hmi
    have h2 := ok.pos _ (List.getElem_mem hmi)
    have h3 := rg _ (List.getElem_mem hmi)
    have h1 : m.max ≤ (r.sectors[r.matchIndex + 1]).min := by simpa using h1
    linarith
  have hA : dmin ∈ Set.Icc dmin dmax := ⟨le_rfl, hlt.le⟩
  have hB : dmax ∈ Set.Icc dmin dmax := ⟨hlt.le, le_rfl⟩
  have hMm : m.max ∈ Set.Icc dmin dmax := ⟨by linarith, hmax.le⟩
  have nz : ∀ x ∈ Set.Icc dmin dmax, y x ≠ 0 ∨ dy x ≠ 0 := fun x hx => by
    have := c1d.simple x hx
    by_cases h : y x = 0
    · exact Or.inr (fun h' => this ⟨h, h'⟩)
    · exact Or.inl h
  obtain ⟨kl, kl0, l1, l2⟩ := parallel hl (nz _ hA) el
  obtain ⟨kr, kr0, r1, r2⟩ := parallel hr (nz _ hB) er
  obtain ⟨θl, al, nl, -⟩ := exists_normal_angle (scaling (vs m 0) E * y dmin) (dy dmin) 0 1
  obtain ⟨θr, ar, -, nr⟩ := exists_normal_angle (scaling (vs m 0) E * y dmax) (dy dmax) 1 0
  have nl := nl (by norm_num)
  have nr := nr (by norm_num)
  obtain ⟨Θl, hΘl, tl⟩ := contAngle_exists hlt hs c1d hA al
  obtain ⟨Θr, hΘr, tr⟩ := contAngle_exists hlt hs c1d hB ar
  rw [← tl] at nl
  rw [← tr] at nr
  have bA : IsBoundary (bounds r.sectors) dmin := by
    rw [← hf.mesh.first]; exact (boundary_of_mem (List.getElem_mem _)).1
  have bB : IsBoundary (bounds r.sectors) dmax := by
    rw [← hf.mesh.last]; exact (boundary_of_mem (List.getElem_mem _)).2
  have bM : IsBoundary (bounds r.sectors) m.max := (boundary_of_mem hmem).2
  have clear : ∀ s ∈ r.sectors, vs s 0 < E → C * (H ^ ord useH + ε / (s.max - s.min)) ≤ E - vs s 0 := fun s hs' hlt' => by
    rcases ha.clear s hs' with h | h
    · exact absurd hlt' (not_lt.mpr h)
    · exact le_sub_iff_add_le'.mpr h
  obtain ⟨L, L1, L2⟩ := key eps σ τ ε eta vs W dmin dmax H E lam r m y dy Θl useH dmin m.max kl left hf he hv hε hε1 hd hE hlam hmm ha.fine ha.accurate clear hEl
    hy hΘl kl0 l1 l2 hl hA hMm bA bM (fun _ => nl) (fun h => absurd hMm.1 (not_le.mpr h))
  obtain ⟨R, R1, R2⟩ := key eps σ τ ε eta vs W dmin dmax H E lam r m y dy Θr useH dmax m.max kr right hf he hv hε hε1 hd hE hlam hmm ha.fine ha.accurate clear hEl
    hy hΘr kr0 r1 r2 hr hB hMm bB bM (fun h => absurd hmax (not_lt.mpr h)) (fun _ => nr)
  obtain ⟨fin, cnt⟩ := interior_count hlt hs c1d hΘl hΘr nl nr
  refine ⟨fin, (L.1.dy * R.1.y - R.1.dy * L.1.y, L.1.dyE * R.1.y + L.1.dy * R.1.yE - (R.1.dyE * L.1.y + R.1.dy * L.1.yE), L.2 - R.2), ?_, ?_⟩
  · set P := constructOf eps eta vs dmin dmax r with hP
    obtain ⟨v0M, hsecs⟩ := construct_secs eps eta vs dmin dmax r
    rw [← hP] at hsecs
    have hlen : r.matchIndex < P.secs.length := by rw [hsecs, List.length_map]; exact hm0
    have hget : P.secs[P.matchIndex]? = some (sectorOf eps eta (vs m) v0M m) := by
      rw [show P.matchIndex = r.matchIndex from rfl, List.getElem?_eq_getElem hlen]
      simp only [hsecs, List.getElem_map, hm]
    unfold Prob.matchingError
    rw [hget]
    simp only [show P.dmin = dmin from rfl, show P.dmax = dmax from rfl, show (sectorOf eps eta (vs m) v0M m).max = m.max from rfl]
    rw [L1, R1]
    rfl
  · rw [← cnt m.max hMm]
    have : L.2 - R.2 - (Θl m.max - Θr m.max) = (L.2 - Θl m.max) - (R.2 - Θr m.max) := by ring
    show |L.2 - R.2 - (Θl m.max - Θr m.max)| ≤ 2 * C * (H ^ ord useH + ε + |E - lam|)
    rw [this]
    refine (abs_sub _ _).trans ?_
    linarith

theorem round_near {θ : ℝ} {N : ℕ} (h : |θ - N * pi| ≤ 1) : round (θ / pi) = N := by
  have hpi := Real.pi_gt_three
  have h1 : |θ / pi - N| < 1 / 2 := by
    rw [show θ / pi - N = (θ - N * pi) / pi by field_simp, abs_div, abs_of_pos Real.pi_pos, div_lt_div_iff₀ Real.pi_pos (by norm_num)]
    linarith
  rw [abs_lt] at h1
  rw [round_eq, Int.floor_eq_iff]
  push_cast
  constructor <;> linarith

/-- **C90.** The index and energy returned by `newtonIteration`: started at `E` near an exact eigenvalue `λ` with eigenfunction `y` it returns the
number of zeros of `y` in the open domain as index, and an energy within `C (tol² + H^16 + ε) + 2^(-2^20)` of `λ`. -/
theorem C90_newton_index (M : ℝ) (hM : 1 ≤ M) : ∃ C : ℝ, 1 ≤ C ∧ ∀ (eps ε : ℝ) (eta : ℕ → ℝ → ℕ → ℝ) (vs : Sec ℝ → ℕ → ℝ) (W : Sec ℝ → ℝ → ℝ)
    (dmin dmax H lam : ℝ) (r : BuildResult ℝ) (useH : Bool) (left right : Y ℝ) (y dy : ℝ → ℝ),
    FitMesh eps M H W dmin dmax r.sectors → AccurateTo ε W r.sectors eta vs → dmax - dmin ≤ M → 1 / M ≤ dmax - dmin → |lam| + 1 ≤ M →
    r.matchIndex + 1 < r.sectors.length → (left.y ≠ 0 ∨ left.dy ≠ 0) → (right.y ≠ 0 ∨ right.dy ≠ 0) →
    left.yE = 0 → left.dyE = 0 → right.yE = 0 → right.dyE = 0 →
    SolvesMesh W lam r.sectors y dy → (∃ x ∈ Set.Icc dmin dmax, y x ≠ 0) →
    y dmin * left.dy = dy dmin * left.y → y dmax * right.dy = dy dmax * right.y →
    C * (H ^ (if useH then 16 else 14) + ε) ≤ 1 →
    ∃ me : ℝ → ℝ × ℝ × ℝ, (∀ E, (constructOf eps eta vs dmin dmax r).matchingError pi E left right useH = .ok (me E)) ∧
      ∀ E tol, |E - lam| ≤ 1 / C →
        (∀ F, |F - lam| ≤ |E - lam| + C * (H ^ (if useH then 16 else 14) + ε) → AngleFit C H ε (if useH then 16 else 14) vs r.sectors F) →
        ∃ E', newton me pi tol E = .ok ((({x ∈ Set.Ioo dmin dmax | y x = 0} : Set ℝ).ncard : ℤ), E') ∧
          |E' - lam| ≤ C * (tol ^ 2 + H ^ (if useH then 16 else 14) + ε) + (1 / 2) ^ 2 ^ 20 := by
  obtain ⟨C1, hC1, k1⟩ := C88_newton_converges M hM
  obtain ⟨C2, hC2, k2⟩ := C90_index M hM
  have hC0 : 0 < C1 * C2 := by positivity
  refine ⟨4 * (C1 * C2), by nlinarith, ?_⟩
  have le1 : C1 ≤ C1 * C2 := le_mul_of_one_le_right (by linarith) hC2
  have le2 : C2 ≤ C1 * C2 := le_mul_of_one_le_left (by linarith) hC1
  intro eps ε eta vs W dmin dmax H lam r useH left right y dy hf hacc hd hd' hlam hmi hl hr l3 l4 r3 r4 hy hne el er hκ
  have hε0 := accurate_nonneg hacc hf.mesh.length_pos
  have hH0 := (fit_pos hf).le
  have hlam' : |lam| ≤ M := by linarith
  have ok := fit_okMesh hf hlam'
  set κ := H ^ (if useH then 16 else 14) + ε with hκd
  have κ0 : 0 ≤ κ := add_nonneg (pow_nonneg hH0 _) hε0
  have m1 : C1 * κ ≤ C1 * C2 * κ := mul_le_mul_of_nonneg_right le1 κ0
  have m2 : C2 * κ ≤ C1 * C2 * κ := mul_le_mul_of_nonneg_right le2 κ0
  have hκ' : C1 * C2 * κ ≤ 1 / 4 := by linarith
  have hκ0 : 0 ≤ C1 * C2 * κ := mul_nonneg hC0.le κ0
  obtain ⟨me, hme, conv⟩ := k1 eps ε eta vs W dmin dmax H lam pi r useH left right hf hacc hd hd' hlam' (by omega) hl hr l3 l4 r3 r4
    ⟨y, dy, hy, hne, el, er⟩ (by linarith)
  refine ⟨me, hme, fun E tol hE hfit => ?_⟩
  have hE1 : |E - lam| ≤ 1 / C1 := hE.trans (one_div_le_one_div_of_le (by linarith) (by linarith))
  obtain ⟨-, stay, nwt⟩ := conv E hE1
  obtain ⟨idx, E', n1, n2⟩ := nwt tol
  obtain ⟨m, -, -, -, ang, -, -⟩ := newtonLoop_spec me tol 19 E
  set F := iterate me E (m - 1) with hF
  have hFs := stay (m - 1)
  rw [← hF, ← hκd] at hFs
  have hCE : C1 * C2 * |E - lam| ≤ 1 / 4 := by
    have := mul_le_mul_of_nonneg_left hE hC0.le
    rwa [show C1 * C2 * (1 / (4 * (C1 * C2))) = 1 / 4 by field_simp] at this
  have hC2E : C2 * |E - lam| ≤ 1 / 4 := (mul_le_mul_of_nonneg_right le2 (abs_nonneg _)).trans hCE
  have hC2F : C2 * |F - lam| ≤ 1 / 2 := by
    have := mul_le_mul_of_nonneg_left hFs (by linarith : 0 ≤ C2)
    have e : C2 * (|E - lam| + C1 * κ) = C2 * |E - lam| + C1 * C2 * κ := by ring
    linarith
  have hFl : |F - lam| ≤ 1 := by
    have := le_mul_of_one_le_left (abs_nonneg (F - lam)) hC2
    linarith
  have hFM : |F| ≤ M := by
    have := abs_add_le (F - lam) lam
    rw [sub_add_cancel] at this
    linarith
  have hfit' : AngleFit C2 H ε (if useH then 16 else 14) vs r.sectors F :=
    (hfit F (hFs.trans (by linarith))).mono (by linarith) hH0 hε0 ok.pos
  obtain ⟨-, err, e1, e2⟩ := k2 eps ε eta vs W dmin dmax H lam F r useH left right y dy hf hacc hd hlam' hFM hmi hl hr hy hne el er hfit' (by linarith)
  rw [hme F] at e1
  cases e1
  have hr1 : round ((newtonLoop me tol 19 E).2.1 / pi) = (({x ∈ Set.Ioo dmin dmax | y x = 0} : Set ℝ).ncard : ℤ) := by
    rw [ang]
    refine round_near (e2.trans ?_)
    rw [← hκd, mul_add]
    linarith
  refine ⟨E', ?_, n2.trans ?_⟩
  · unfold newton at n1 ⊢
    simp only [CInt.round, toInt, Outcome.bind_ok, Outcome.pure_eq, hr1] at n1 ⊢
    have : ¬ (({x ∈ Set.Ioo dmin dmax | y x = 0} : Set ℝ).ncard : ℤ) < 0 := by omega
    rw [if_neg this] at n1 ⊢
    simp only [Outcome.ok.injEq, Prod.mk.injEq] at n1 ⊢
    exact ⟨trivial, n1.2⟩
  · refine add_le_add (mul_le_mul_of_nonneg_right (by linarith) ?_) le_rfl
    have := sq_nonneg tol
    rw [add_assoc]
    exact add_nonneg this κ0

/-! ### A concrete case: `V(x) = x²` on `[-1, 1]` with `y'(±1) = 0`, eigenvalue `3`, eigenfunction `x e^(-x²/2)` with one zero -/

theorem osc1_solves : SolvesOn (fun x => x ^ 2) 3 (-1) 1 (fun x => x * Real.exp (-x ^ 2 / 2)) (fun x => (1 - x ^ 2) * Real.exp (-x ^ 2 / 2)) := by
  have h1 : ∀ x : ℝ, HasDerivAt (fun x => Real.exp (-x ^ 2 / 2)) (-x * Real.exp (-x ^ 2 / 2)) x := by
    intro x
    have : HasDerivAt (fun x : ℝ => -x ^ 2 / 2) (-x) x :=
      (((hasDerivAt_id x).fun_pow 2).fun_neg.div_const 2).congr_deriv (by simp; ring)
    exact this.exp.congr_deriv (by ring)
  refine ⟨fun x _ => HasDerivAt.hasDerivWithinAt ?_, fun x _ => HasDerivAt.hasDerivWithinAt ?_⟩
  · exact ((hasDerivAt_id x).mul (h1 x)).congr_deriv (by simp; ring)
  · exact ((((hasDerivAt_id x).fun_pow 2).const_sub 1).mul (h1 x)).congr_deriv (by simp; ring)

theorem osc1_zeros : ({x ∈ Set.Ioo (-1) 1 | x * Real.exp (-x ^ 2 / 2) = 0} : Set ℝ) = {0} := by
  ext x
  simp only [Set.mem_ofPred_eq, Set.mem_singleton_iff, mul_eq_zero, (Real.exp_pos _).ne', or_false]
  exact ⟨fun h => h.2, fun h => ⟨by rw [h]; norm_num, h⟩⟩

theorem osc_smooth4 : SmoothOn 4 (fun x => x ^ 2) (-1) 1 := by
  obtain ⟨D, h0, h1, h2⟩ := osc_smooth
  exact ⟨D, h0, h1, fun j hj x hx => (h2 j hj x hx).trans (by norm_num)⟩

/-- What the cases below share: the mesh, and `AngleFit` for all energies at least `5/2`. -/
theorem osc1_fit {C : ℝ} (hC : 1 ≤ C) {n : ℕ} (hn : 8 * C ≤ n) (cmp : Sec ℝ → Sec ℝ → Bool) : ∃ r, uniformBuild cmp n (-1) 1 = .ok r ∧ r.matchIndex + 1 < r.sectors.length ∧
    FitMesh 0 4 ((1 - -1) / n) (fun _ x => x ^ 2) (-1) 1 r.sectors ∧ AccurateTo 0 (fun _ x => x ^ 2) r.sectors etaExact (exactVs fun x => x ^ 2) ∧
    SolvesMesh (fun _ x => x ^ 2) 3 r.sectors (fun x => x * Real.exp (-x ^ 2 / 2)) (fun x => (1 - x ^ 2) * Real.exp (-x ^ 2 / 2)) ∧
    C * (((1 - -1) / n) ^ 16 + 0) ≤ 1 / 4 ∧ ∀ F, 5 / 2 ≤ F → AngleFit C ((1 - -1) / n) 0 16 (exactVs fun x => x ^ 2) r.sectors F := by
  have hn0 : (0 : ℝ) < n := by linarith
  set h : ℝ := (1 - -1) / n with hh
  have h1 : h ≤ 1 / (4 * C) := by
    rw [hh, div_le_div_iff₀ hn0 (by linarith)]; linarith
  have h2 : h ≤ 1 := h1.trans (by rw [div_le_one (by linarith)]; linarith)
  have h3 : 0 < h := by positivity
  have h4 : C * h ≤ 1 / 4 := by
    have := mul_le_mul_of_nonneg_left h1 (by linarith : 0 ≤ C)
    rwa [show C * (1 / (4 * C)) = 1 / 4 by field_simp] at this
  have h5 : C * h ^ 16 ≤ 1 / 4 := (mul_le_mul_of_nonneg_left (pow_le_of_le_one h3.le h2 (by norm_num)) (by linarith)).trans h4
  have hn2 : 2 ≤ n := by
    have : (2 : ℝ) ≤ n := by linarith
    exact_mod_cast this
  obtain ⟨r, e1, hlen, hm, hf, hc, hp, hne⟩ := uniform_fit cmp (by omega : 1 ≤ n) le_rfl osc_smooth4 h2 h3
  have hv : CoeffsWithin 0 (fun _ x => x ^ 2) r.sectors (exactVs fun x => x ^ 2) := coeffs_on_mesh (exact_coeffs _ _ _ _) hf hc hp
  obtain ⟨r', f1, -, -, f4⟩ := C02_uniform_split cmp n (by omega) (-1 : ℝ) 1
  rw [e1] at f1
  cases f1
  refine ⟨r, e1, f4 (by omega), hf, ⟨by norm_num, 0, 0, etaWithin_exact, hv, by simp⟩, (solvesMesh_iff hc hp hne).mpr osc1_solves, by simpa using h5, fun F hF => ?_⟩
  refine ⟨by linarith, fun s hs => by have := hp s hs; linarith, fun s hs => Or.inr ?_⟩
  have rg := (chn_range hc hp).2 s hs
  have := (coeff_zero_bound (hp s hs) (SmoothOn.shrink osc_smooth rg.1 rg.2) (hv s hs)).1
  rw [abs_le] at this
  rw [zero_div, add_zero]
  linarith [this.2]

/-- C90: Newton from any start near the eigenvalue `3` returns the index `1`. -/
example : ∃ C : ℝ, 1 ≤ C ∧ ∀ (n : ℕ) (cmp : Sec ℝ → Sec ℝ → Bool) (tol E : ℝ), 8 * C ≤ n → |E - 3| ≤ 1 / (4 * C) → ∃ r me E', uniformBuild cmp n (-1) 1 = .ok r ∧
    (∀ F, (constructOf 0 etaExact (exactVs fun x => x ^ 2) (-1) 1 r).matchingError pi F ⟨1, 0, 0, 0⟩ ⟨1, 0, 0, 0⟩ true = .ok (me F)) ∧
    newton me pi tol E = .ok (1, E') ∧ |E' - 3| ≤ C * (tol ^ 2 + ((1 - -1) / n) ^ 16 + 0) + (1 / 2) ^ 2 ^ 20 := by
  obtain ⟨C, hC, key⟩ := C90_newton_index 4 (by norm_num)
  refine ⟨C, hC, fun n cmp tol E hn hE => ?_⟩
  obtain ⟨r, e1, hm, hf, hacc, hy, hκ, hfit⟩ := osc1_fit hC hn cmp
  obtain ⟨me, m1, m2⟩ := key 0 0 etaExact (exactVs fun x => x ^ 2) (fun _ x => x ^ 2) (-1) 1 ((1 - -1) / n) 3 r true ⟨1, 0, 0, 0⟩ ⟨1, 0, 0, 0⟩ _ _ hf hacc
    (by norm_num) (by norm_num) (by norm_num) hm (Or.inl one_ne_zero) (Or.inl one_ne_zero) rfl rfl rfl rfl hy ⟨1, by norm_num, by simp⟩ (by norm_num) (by norm_num) (by simp only [if_true]; linarith)
  obtain ⟨E', k1, k2⟩ := m2 E tol (hE.trans (one_div_le_one_div_of_le (by linarith) (by linarith))) (fun F hF => by
    refine hfit F ?_
    simp only [if_true] at hF
    have h1 : 1 / (4 * C) ≤ 1 / 4 := one_div_le_one_div_of_le (by norm_num) (by linarith)
    have := (abs_le.mp (hF.trans (add_le_add (hE.trans h1) hκ))).1
    linarith)
  rw [osc1_zeros] at k1
  exact ⟨r, me, E', e1, m1, by simpa using k1, by simpa using k2⟩

/-- C89: propagating the same eigenfunction from `-1` to `1` gives an angle in `[π, 2π)`: one zero. -/
example : ∃ C : ℝ, 1 ≤ C ∧ ∀ (n : ℕ) (cmp : Sec ℝ → Sec ℝ → Bool), 8 * C ≤ n → ∃ r res, uniformBuild cmp n (-1) 1 = .ok r ∧
    (constructOf 0 etaExact (exactVs fun x => x ^ 2) (-1) 1 r).propagate pi 3 ⟨-Real.exp (-1 / 2), 0, 0, 0⟩ (-1) 1 true = .ok res ∧ ⌊res.2 / pi⌋ = 1 := by
  obtain ⟨C, hC, key⟩ := C89_zero_count 4 (by norm_num)
  refine ⟨C, hC, fun n cmp hn => ?_⟩
  obtain ⟨r, e1, hm, hf, hacc, hy, hκ, hfit⟩ := osc1_fit hC hn cmp
  have hex := Real.exp_pos (-1 / 2)
  have bA : IsBoundary (bounds r.sectors) (-1) := by
    rw [← hf.mesh.first]; exact (boundary_of_mem (List.getElem_mem _)).1
  have bB : IsBoundary (bounds r.sectors) 1 := by
    rw [← hf.mesh.last]; exact (boundary_of_mem (List.getElem_mem _)).2
  obtain ⟨res, h1, h2, -⟩ := key 0 0 etaExact (exactVs fun x => x ^ 2) (fun _ x => x ^ 2) (-1) 1 ((1 - -1) / n) 3 r _ _ true (-1) 1 ⟨-Real.exp (-1 / 2), 0, 0, 0⟩ hf hacc
    (by norm_num) (by norm_num) (by omega) (hfit 3 (by norm_num)) hy (by norm_num) (by norm_num) (Or.inl (by simpa using hex.ne')) (by norm_num) (by norm_num) bA bB
    (by
      simp only [if_true, one_pow, sub_self, zero_mul, abs_zero, add_zero, one_mul] at hκ ⊢
      rw [abs_of_pos hex]
      have := mul_le_mul_of_nonneg_right hκ hex.le
      linarith)
  have h2 := (h2 (by norm_num)).2
  refine ⟨r, res, e1, h1, ?_⟩
  have : ({x ∈ Set.Ioc (-1) 1 | x * Real.exp (-x ^ 2 / 2) = 0} : Set ℝ) = {0} := by
    ext x
    simp only [Set.mem_ofPred_eq, Set.mem_singleton_iff, mul_eq_zero, (Real.exp_pos _).ne', or_false]
    exact ⟨fun h => h.2, fun h => ⟨by rw [h]; norm_num, h⟩⟩
  rw [← h2, this]
  simp

end Verif.Solver
