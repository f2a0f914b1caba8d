import Verif.Lemmas.UniformMesh

/-!
# C87: eigenvalues with the uniform builder

`Matslise` on a smooth potential `V` over `[a, b]` with `UniformSectorBuilder(n)`.
-/
namespace Verif.Solver
open Verif.Mesh Verif.YT Verif.CalcT Verif.Propag Verif.Formulas Verif.Legendre Verif.Spec

theorem isEigenvalue_iff {V : ℝ → ℝ} {l : List (Sec ℝ)} {a b : ℝ} (hc : Chn a l b) (hp : ∀ s ∈ l, s.min < s.max) (hn : l ≠ []) (L R : ℝ × ℝ) (E : ℝ) :
    IsEigenvalue (fun _ => V) l a b L R E ↔ IsEigenvalueOn V a b L R E :=
  exists_congr fun _ => exists_congr fun _ => and_congr (solvesMesh_iff hc hp hn) Iff.rfl

/-- Accuracy of the coefficients on the sectors of a mesh. -/
theorem coeffs_on_mesh {τ : ℝ} {V : ℝ → ℝ} {a b H M : ℝ} {vs : Sec ℝ → ℕ → ℝ} {l : List (Sec ℝ)} (h : SectorCoeffs τ V a b H vs)
    {eps : ℝ} (hf : FitMesh eps M H (fun _ => V) a b l) (hc : Chn a l b) (hp : ∀ s ∈ l, s.min < s.max) : CoeffsWithin τ (fun _ => V) l vs := by
  intro s hs
  have hr := (chn_range hc hp).2 s hs
  exact h s hr.1 (hp s hs) hr.2 (hf.narrow s hs)

/-- **C87.** The code's own coefficients meet `SectorCoeffs` with `τ = 16·10⁻¹⁴ M + 37 M H^16` for a smooth potential. -/
theorem C87_code_coefficients {M H : ℝ} (hM : 0 ≤ M) {V : ℝ → ℝ} {a b : ℝ} (hV : SmoothOn M V a b) (hH : H ≤ 1) :
    SectorCoeffs (16 * M / 10 ^ 14 + 37 * M * H ^ 16) V a b H (sectorVs V) := fun s h1 h2 h3 h4 =>
  coeffWithin_sector hM h2 h4 hH (SmoothOn.shrink hV h1 h3) (fun _ _ _ => rfl)

/-- **C87, soundness.** For every bound `M` there is a constant `C` such that for every potential with sixteen derivatives bounded by `M`
on `[a, b]`, every number `n` of sectors, every energy and all non-zero boundary values: the uniform builder succeeds, `matchingError`
succeeds, and where it is small compared with the boundary values an exact eigenvalue of the differential equation lies within
`C ·(|error| + h^16 + τ + nσ)`, `h = (b - a)/n`; this eigenvalue is the only one at a distance less than `1/C` from itself. -/
theorem C87_uniform_sound (M : ℝ) (hM : 1 ≤ M) : ∃ C : ℝ, 1 ≤ C ∧ ∀ (eps σ τ : ℝ) (eta : ℕ → ℝ → ℕ → ℝ) (vs : Sec ℝ → ℕ → ℝ) (V : ℝ → ℝ)
    (a b E pi : ℝ) (n : ℕ) (cmp : Sec ℝ → Sec ℝ → Bool) (useH : Bool) (left right : Y ℝ),
    SmoothOn M V a b → 1 / M ≤ b - a → b - a ≤ M → 1 ≤ n → (b - a) / n ≤ 1 → 0 ≤ eps → eps < (b - a) / n →
    EtaWithin σ eta → SectorCoeffs τ V a b ((b - a) / n) vs → τ + n * σ ≤ 1 → |E| ≤ M →
    (left.y ≠ 0 ∨ left.dy ≠ 0) → (right.y ≠ 0 ∨ right.dy ≠ 0) →
    ∃ r err, uniformBuild cmp n a b = .ok r ∧ (constructOf eps eta vs a b r).matchingError pi E left right useH = .ok err ∧
      ∀ η, |err.1| / (max |left.y| |left.dy| * max |right.y| |right.dy|) + ((b - a) / n) ^ (if useH then 16 else 14) + τ + n * σ ≤ η →
        C * η ≤ 1 →
        ∃ lam, IsEigenvalueOn V a b (left.y, left.dy) (right.y, right.dy) lam ∧ |lam - E| ≤ C * η ∧
          ∀ lam', IsEigenvalueOn V a b (left.y, left.dy) (right.y, right.dy) lam' → |lam' - lam| < 1 / C → lam' = lam := by
  obtain ⟨C, hC, key⟩ := C85_small_error_eigenvalue M hM
  refine ⟨C, hC, ?_⟩
  intro eps σ τ eta vs V a b E pi n cmp useH left right hV hab hab' hn h1 h0 hw he hv hε hE hl hr
  obtain ⟨r, e1, hlen, hm, hf, hc, hp, hne⟩ := uniform_fit cmp hn h0 hV h1 hw
  obtain ⟨err, h2, h3⟩ := key eps (τ + n * σ) eta vs (fun _ => V) a b ((b - a) / n) E pi r useH left right hf
    ⟨hε, σ, τ, he, coeffs_on_mesh hv hf hc hp, by rw [hlen]⟩ hab' hab hE hm hl hr
  refine ⟨r, err, e1, h2, ?_⟩
  intro η hη hCη
  obtain ⟨lam, l1, l2, l3⟩ := h3 η (by linarith) hCη
  simp only [isEigenvalue_iff hc hp hne] at l1 l3
  exact ⟨lam, l1, l2, l3⟩

/-- **C87, completeness.** … and every exact eigenvalue `λ`, `|λ| ≤ M`, makes the computed matching error change sign: for every `δ` with
`C (h^16 + τ + nσ) ≤ δ ≤ 1/C` its values at `λ - δ` and `λ + δ` have opposite signs and sizes at least `δ/C` relative to the boundary
values. -/
theorem C87_uniform_complete (M : ℝ) (hM : 1 ≤ M) : ∃ C : ℝ, 1 ≤ C ∧ ∀ (eps σ τ : ℝ) (eta : ℕ → ℝ → ℕ → ℝ) (vs : Sec ℝ → ℕ → ℝ) (V : ℝ → ℝ)
    (a b lam δ pi : ℝ) (n : ℕ) (cmp : Sec ℝ → Sec ℝ → Bool) (useH : Bool) (left right : Y ℝ),
    SmoothOn M V a b → 1 / M ≤ b - a → b - a ≤ M → 1 ≤ n → (b - a) / n ≤ 1 → 0 ≤ eps → eps < (b - a) / n →
    EtaWithin σ eta → SectorCoeffs τ V a b ((b - a) / n) vs → τ + n * σ ≤ 1 → |lam| ≤ M →
    (left.y ≠ 0 ∨ left.dy ≠ 0) → (right.y ≠ 0 ∨ right.dy ≠ 0) →
    IsEigenvalueOn V a b (left.y, left.dy) (right.y, right.dy) lam →
    C * (((b - a) / n) ^ (if useH then 16 else 14) + τ + n * σ) ≤ δ → δ ≤ 1 / C →
    ∃ r lo hi, uniformBuild cmp n a b = .ok r ∧ (constructOf eps eta vs a b r).matchingError pi (lam - δ) left right useH = .ok lo ∧
      (constructOf eps eta vs a b r).matchingError pi (lam + δ) left right useH = .ok hi ∧
      lo.1 * hi.1 < 0 ∧
      δ / C * (max |left.y| |left.dy| * max |right.y| |right.dy|) ≤ |lo.1| ∧
      δ / C * (max |left.y| |left.dy| * max |right.y| |right.dy|) ≤ |hi.1| := by
  obtain ⟨C, hC, key⟩ := C86_eigenvalue_sign_change M hM
  refine ⟨C, hC, ?_⟩
  intro eps σ τ eta vs V a b lam δ pi n cmp useH left right hV hab hab' hn h1 h0 hw he hv hε hE hl hr heig hδ hδ1
  obtain ⟨r, e1, hlen, hm, hf, hc, hp, hne⟩ := uniform_fit cmp hn h0 hV h1 hw
  obtain ⟨lo, hi, h2⟩ := key eps (τ + n * σ) eta vs (fun _ => V) a b ((b - a) / n) lam δ pi r useH left right hf
    ⟨hε, σ, τ, he, coeffs_on_mesh hv hf hc hp, by rw [hlen]⟩ hab' hab hE hm hl hr ((isEigenvalue_iff hc hp hne _ _ _).mpr heig)
    (by rw [← add_assoc]; exact hδ) hδ1
  exact ⟨r, lo, hi, e1, h2⟩

/-! ### Cases that meet the hypotheses

`V(x) = x²` on `[-1, 1]`, with the exact eigenvalue `1` and eigenfunction `exp(-x²/2)`. First exact ingredients, then the code's. -/

/-- exact coefficients -/
noncomputable def exactVs (V : ℝ → ℝ) (s : Sec ℝ) (k : ℕ) : ℝ := if k < 16 then legendreCoeff (oriented V s) s.min s.max k / (s.max - s.min) ^ k else 0

theorem exact_coeffs (V : ℝ → ℝ) (a b H : ℝ) : SectorCoeffs 0 V a b H (exactVs V) := by
  intro s _ hlt _ _
  refine ⟨fun k hk => ?_, fun k hk => if_neg (by omega)⟩
  have : s.max - s.min ≠ 0 := by linarith
  unfold exactVs
  rw [if_pos hk, div_mul_cancel₀ _ (pow_ne_zero _ this), sub_self, abs_zero]

theorem osc_smooth : SmoothOn 2 (fun x => x ^ 2) (-1) 1 := by
  refine ⟨fun j x => match j with | 0 => x ^ 2 | 1 => 2 * x | 2 => 2 | _ => 0, fun _ _ => rfl, ?_, ?_⟩
  · intro j hj x _
    match j with
    | 0 => exact (((hasDerivAt_id x).fun_pow 2).congr_deriv (by simp)).hasDerivWithinAt
    | 1 => exact (((hasDerivAt_id x).const_mul 2).congr_deriv (by simp)).hasDerivWithinAt
    | 2 => exact hasDerivWithinAt_const _ _ _
    | k + 3 => exact hasDerivWithinAt_const _ _ _
  · intro j hj x hx
    have h1 := hx.1
    have h2 := hx.2
    match j with
    | 0 => simp only; rw [abs_le]; constructor <;> nlinarith
    | 1 => simp only; rw [abs_le]; constructor <;> linarith
    | 2 => simp
    | k + 3 => simp

theorem osc_solves : SolvesOn (fun x => x ^ 2) 1 (-1) 1 (fun x => Real.exp (-x ^ 2 / 2)) (fun x => -x * Real.exp (-x ^ 2 / 2)) := by
  have h1 : ∀ x : ℝ, HasDerivAt (fun x => Real.exp (-x ^ 2 / 2)) (-x * Real.exp (-x ^ 2 / 2)) x := by
    intro x
    have : HasDerivAt (fun x : ℝ => -x ^ 2 / 2) (-x) x :=
      (((hasDerivAt_id x).fun_pow 2).fun_neg.div_const 2).congr_deriv (by simp; ring)
    exact this.exp.congr_deriv (by ring)
  refine ⟨fun x _ => (h1 x).hasDerivWithinAt, fun x _ => HasDerivAt.hasDerivWithinAt ?_⟩
  exact (((hasDerivAt_id x).fun_neg).mul (h1 x)).congr_deriv (by simp; ring)

theorem osc_eigen : IsEigenvalueOn (fun x => x ^ 2) (-1) 1 (1, 1) (1, -1) 1 :=
  ⟨_, _, osc_solves, ⟨0, by norm_num, (Real.exp_pos _).ne'⟩, by norm_num, by norm_num⟩

theorem inv_small {C : ℝ} (hC : 1 ≤ C) {n : ℕ} (hn : 2 * C ≤ n) : 1 ≤ n ∧ ((1 : ℝ) - -1) / n ≤ 1 ∧ 0 < ((1 : ℝ) - -1) / n ∧ C * (((1 : ℝ) - -1) / n) ^ 16 ≤ 1 := by
  have hn0 : (0 : ℝ) < n := by linarith
  have h1 : ((1 : ℝ) - -1) / n ≤ 1 / C := by
    rw [div_le_div_iff₀ hn0 (by linarith)]; linarith
  have h2 : ((1 : ℝ) - -1) / n ≤ 1 := h1.trans (by rw [div_le_one (by linarith)]; exact hC)
  have h3 : 0 < ((1 : ℝ) - -1) / n := by positivity
  refine ⟨by exact_mod_cast hn0, h2, h3, ?_⟩
  have h4 : (((1 : ℝ) - -1) / n) ^ 16 ≤ ((1 : ℝ) - -1) / n := pow_le_of_le_one h3.le h2 (by norm_num)
  calc C * (((1 : ℝ) - -1) / n) ^ 16 ≤ C * (1 / C) := mul_le_mul_of_nonneg_left (h4.trans h1) (by linarith)
    _ = 1 := by field_simp

/-- C86, C87 (completeness): with enough sectors the matching error changes sign within `C h^16` of the eigenvalue `1`. -/
example : ∃ C : ℝ, 1 ≤ C ∧ ∀ (n : ℕ) (cmp : Sec ℝ → Sec ℝ → Bool) (pi : ℝ), 2 * (C * C) ≤ n → ∃ r lo hi, uniformBuild cmp n (-1) 1 = .ok r ∧
    (constructOf 0 etaExact (exactVs fun x => x ^ 2) (-1) 1 r).matchingError pi (1 - C * ((1 - -1) / n) ^ 16) ⟨1, 1, 0, 0⟩ ⟨1, -1, 0, 0⟩ true = .ok lo ∧
    (constructOf 0 etaExact (exactVs fun x => x ^ 2) (-1) 1 r).matchingError pi (1 + C * ((1 - -1) / n) ^ 16) ⟨1, 1, 0, 0⟩ ⟨1, -1, 0, 0⟩ true = .ok hi ∧
    lo.1 * hi.1 < 0 := by
  obtain ⟨C, hC, key⟩ := C87_uniform_complete 2 (by norm_num)
  refine ⟨C, hC, fun n cmp pi hn => ?_⟩
  obtain ⟨h1, h2, h3, h4⟩ := inv_small (one_le_mul_of_one_le_of_one_le hC hC) hn
  have hd : C * ((1 - -1) / (n : ℝ)) ^ 16 ≤ 1 / C := by
    rw [le_div_iff₀ (by linarith)]; linarith
  obtain ⟨r, lo, hi, a1, a2, a3, a4, -⟩ := key 0 0 0 etaExact (exactVs fun x => x ^ 2) (fun x => x ^ 2) (-1) 1 1 (C * ((1 - -1) / n) ^ 16) pi n cmp true
    ⟨1, 1, 0, 0⟩ ⟨1, -1, 0, 0⟩ osc_smooth (by norm_num) (by norm_num) h1 h2 le_rfl h3 etaWithin_exact (exact_coeffs _ _ _ _) (by norm_num) (by norm_num)
    (by norm_num) (by norm_num) osc_eigen (by simp) hd
  exact ⟨r, lo, hi, a1, a2, a3, a4⟩

/-- C84, C85, C87 (soundness): for every `C` the hypothesis `C η ≤ 1` is met, with enough sectors, at the energy `1`. -/
example (C : ℝ) (hC : 1 ≤ C) : ∃ N : ℝ, ∀ (n : ℕ) (cmp : Sec ℝ → Sec ℝ → Bool) (pi : ℝ), N ≤ n → ∃ r err, uniformBuild cmp n (-1) 1 = .ok r ∧
    (constructOf 0 etaExact (exactVs fun x => x ^ 2) (-1) 1 r).matchingError pi 1 ⟨1, 1, 0, 0⟩ ⟨1, -1, 0, 0⟩ true = .ok err ∧
    C * (|err.1| / (max |1| |1| * max |1| |-1|) + ((1 - -1) / n) ^ 16 + 0 + n * 0) ≤ 1 := by
  obtain ⟨D, key⟩ := C84_matching_error 2 (by norm_num)
  have hD1 : 1 ≤ C * (1 + |D|) := one_le_mul_of_one_le_of_one_le hC (by linarith [abs_nonneg D])
  refine ⟨2 * (C * (1 + |D|)), fun n cmp pi hn => ?_⟩
  obtain ⟨h1, h2, h3, h4⟩ := inv_small hD1 hn
  obtain ⟨r, e1, hlen, hm, hf, hc, hp, hne⟩ := uniform_fit cmp h1 le_rfl osc_smooth h2 h3
  have sol := (solvesMesh_iff (E := 1) hc hp hne).mpr osc_solves
  have scale : ∀ k : ℝ, SolvesMesh (fun _ x => x ^ 2) 1 r.sectors (fun x => k * Real.exp (-x ^ 2 / 2)) (fun x => k * (-x * Real.exp (-x ^ 2 / 2))) := by
    intro k s hs
    have := sol s hs
    exact ⟨fun x hx => (this.d1 x hx).const_mul k, fun x hx => ((this.d2 x hx).const_mul k).congr_deriv (by ring)⟩
  have ee : Real.exp (1 / 2) * Real.exp (-(1 / 2)) = 1 := by rw [← Real.exp_add]; norm_num
  have hv : CoeffsWithin 0 (fun _ x => x ^ 2) r.sectors (exactVs fun x => x ^ 2) := coeffs_on_mesh (exact_coeffs _ _ _ _) hf hc hp
  obtain ⟨err, h5, h6⟩ := key 0 0 etaExact (exactVs fun x => x ^ 2) (fun _ x => x ^ 2) (-1) 1 ((1 - -1) / n) 1 pi r true ⟨1, 1, 0, 0⟩ ⟨1, -1, 0, 0⟩ _ _ _ _ hf
    ⟨by norm_num, 0, 0, etaWithin_exact, hv, by simp⟩ (by norm_num) (by norm_num) hm
    (scale (Real.exp (1 / 2))) (by norm_num; exact ee) (by norm_num; exact ee) (scale (Real.exp (1 / 2))) (by norm_num; exact ee) (by norm_num; exact ee)
  refine ⟨r, err, e1, h5, ?_⟩
  have h7 := h6 0 (by norm_num)
  simp only [neg_zero, zero_mul, mul_zero, sub_zero, if_true, add_zero, abs_one, abs_neg, max_self, mul_one, div_one] at h7 ⊢
  have q : 0 ≤ (((1 : ℝ) - -1) / n) ^ 16 := by positivity
  have h8 : D * (((1 : ℝ) - -1) / n) ^ 16 ≤ |D| * (((1 : ℝ) - -1) / n) ^ 16 := mul_le_mul_of_nonneg_right (le_abs_self D) q
  have h9 : |err.1| + (((1 : ℝ) - -1) / n) ^ 16 ≤ (1 + |D|) * (((1 : ℝ) - -1) / n) ^ 16 := by linarith
  have := mul_le_mul_of_nonneg_left h9 (show 0 ≤ C by linarith)
  linarith

/-- C83 with the code's own η functions, coefficients and threshold: four sectors, from `-1` to `1`. -/
example : ∃ C : ℝ, ∀ (junk : ℕ → ℝ) (cmp : Sec ℝ → Sec ℝ → Bool) (pi : ℝ), ∃ r res, uniformBuild cmp 4 (-1) 1 = .ok r ∧
    (construct (etaCode junk) (fun x => x ^ 2) (-1) 1 r).propagate pi 1 ⟨Real.exp (-1 / 2), Real.exp (-1 / 2), 0, 0⟩ (-1) 1 true = .ok res ∧
    |res.1.y - Real.exp (-1 / 2)| ≤ C * ((1 / 2) ^ 16 + (17 * 2 / 10 ^ 14 + 37 * 2 * (1 / 2) ^ 16)) * Real.exp (-1 / 2) := by
  obtain ⟨C, key⟩ := C83_propagate 2 (by norm_num)
  refine ⟨C, fun junk cmp pi => ?_⟩
  obtain ⟨r, e1, hlen, hm, hf, hc, hp, hne⟩ := uniform_fit (n := 4) (eps := 1 / 10 ^ 12) cmp (by norm_num) (by norm_num) osc_smooth (by norm_num) (by norm_num)
  have hH : ((1 : ℝ) - -1) / ((4 : ℕ) : ℝ) = 1 / 2 := by norm_num
  rw [hH] at hf
  have acc := C83_code_accuracy (by norm_num) junk (V := fun x => x ^ 2) hf (fun _ _ _ _ _ => rfl) (by norm_num) (by norm_num)
  obtain ⟨res, h1, h2, -⟩ := key _ _ _ _ _ (-1) 1 (1 / 2) 1 pi r _ _ true (-1) 1 0 0 hf acc (by norm_num) (by norm_num)
    ((solvesMesh_iff (E := 1) hc hp hne).mpr osc_solves) (by norm_num) (by norm_num)
  have bnd : ∀ x, x = -1 ∨ x = 1 → IsBoundary (bounds r.sectors) x := by
    intro x hx
    have hl : 0 < r.sectors.length := by omega
    rcases hx with rfl | rfl
    · refine ⟨_, List.mem_map.mpr ⟨r.sectors[0], List.getElem_mem _, rfl⟩, Or.inl ?_⟩
      exact hf.mesh.tiling.first _ (by simp only [bounds, List.head?_eq_getElem?, List.getElem?_map, List.getElem?_eq_getElem hl, Option.map_some])
    · refine ⟨_, List.mem_map.mpr ⟨r.sectors[r.sectors.length - 1], List.getElem_mem _, rfl⟩, Or.inr ?_⟩
      exact hf.mesh.tiling.last _ (by simp only [bounds, List.getLast?_eq_getElem?, List.length_map, List.getElem?_map, List.getElem?_eq_getElem (show r.sectors.length - 1 < r.sectors.length by omega), Option.map_some])
  refine ⟨r, res, e1, ?_, ?_⟩
  · have e : (CCmp.lit EPS : ℝ) = 1 / 10 ^ 12 := by simp [EPS]; norm_num
    rw [construct, e]
    simpa using h1
  · have := (h2 (bnd _ (Or.inl rfl)) (bnd _ (Or.inr rfl))).1
    simpa using this

end Verif.Solver
