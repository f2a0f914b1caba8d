import Verif.Lemmas.SectorError
import Verif.Lemmas.MeshCount
import Verif.Lemmas.MeshTiny
import Verif.Props.MeshAuto
import Verif.Props.UniformSolve

/-!
# C101, C102: the local error estimate and the size of the automatic mesh
`matslise/matslise/sector.cpp:231-250`, `matslise/util/sectorbuilder.cpp:55-186`
-/
namespace Verif.Solver
open Verif.Mesh Verif.YT Verif.CalcT Verif.Spec

/-- All sectors but at most one have width at least `m`, so there are at most `1 + (b - a) / m` of them. -/
structure FewSectors (m a b : ℝ) (l : List (Sec ℝ)) : Prop where
  count : ((l.length : ℝ) - 1) * m ≤ b - a
  wide : ∃ l₁ s l₂, l = l₁ ++ s :: l₂ ∧ ∀ t ∈ l₁ ++ l₂, m ≤ t.max - t.min

theorem errOracle_lawful (eps : ℝ) (eta : ℕ → ℝ → ℕ → ℝ) (vs : Sec ℝ → ℕ → ℝ) {tol : ℝ} (htol : 0 < tol) : (errOracle eps eta vs tol).Lawful :=
  lawful_ofError _ tol htol 14

/-! ### C101 -/

/-- **C101.** The estimate is never negative. -/
theorem C101_estimate_nonneg (eps : ℝ) (eta : ℕ → ℝ → ℕ → ℝ) (h : ℝ) (v : ℕ → ℝ) : 0 ≤ sectorError eps eta h v :=
  sectorError_nonneg eps eta h v

/-- **C101.** What the estimate bounds: at the energy `vs[0]` the entries of the two full-step matrices (with and without the
dedicated end-point formulas) differ by at most `e, e h, e / h, e`. -/
theorem C101_estimate_meaning (eps : ℝ) (eta : ℕ → ℝ → ℕ → ℝ) {h : ℝ} (h0 : 0 < h) (v : ℕ → ℝ) {e : ℝ} (he : sectorError eps eta h v ≤ e) :
    |(calcH eta (mkSec h v) (v 0)).t.a - (calculateTWith eps eta (mkSec h v) (v 0) h false).t.a| ≤ e ∧
    |(calcH eta (mkSec h v) (v 0)).t.b - (calculateTWith eps eta (mkSec h v) (v 0) h false).t.b| ≤ e * h ∧
    |(calcH eta (mkSec h v) (v 0)).t.c - (calculateTWith eps eta (mkSec h v) (v 0) h false).t.c| ≤ e / h ∧
    |(calcH eta (mkSec h v) (v 0)).t.d - (calculateTWith eps eta (mkSec h v) (v 0) h false).t.d| ≤ e := by
  have k : eLoc0 eps eta h v ≤ e := (le_max_left _ _).trans he
  unfold eLoc0 at k
  simp only [max_le_iff] at k
  obtain ⟨⟨k1, k2⟩, k3, k4⟩ := k
  rw [mul_one] at k1 k4
  rw [abs_mul, abs_of_pos (by positivity : 0 < 1 / h), mul_one_div, div_le_iff₀ h0] at k2
  rw [abs_mul, abs_of_pos h0] at k3
  exact ⟨k1, k2, by rwa [le_div_iff₀ h0], k4⟩

/-- **C101.** On a smooth potential the estimate of a sector of width `h` (longer than the 1e-12 below which a step counts as
none) is at most `C (h^12 + τ)`, `τ` being the accuracy of the coefficients. -/
theorem C101_estimate_small (M : ℝ) (hM : 1 ≤ M) : ∃ C : ℝ, 1 ≤ C ∧ ∀ (eps τ : ℝ) (eta : ℕ → ℝ → ℕ → ℝ) (v : ℕ → ℝ) (W : ℝ → ℝ) (a b : ℝ),
    EtaAtZero eta → τ ≤ 1 → eps < b - a → a < b → b - a ≤ 1 → SmoothOn M W a b → CoeffWithin τ W a b v →
    sectorError eps eta (b - a) v ≤ C * ((b - a) ^ 12 + τ) := sectorError_le M hM

theorem oriented_smooth {M : ℝ} {V : ℝ → ℝ} {s : Sec ℝ} (h : SmoothOn M V s.min s.max) : SmoothOn M (oriented V s) s.min s.max := by
  unfold oriented
  split
  · exact h.reflect
  · exact h

/-- **C101.** The code's own estimate, with the coefficients it samples and its η functions. -/
theorem C101_code_estimate (M : ℝ) (hM : 1 ≤ M) (hM2 : M ≤ 10 ^ 12) : ∃ C : ℝ, 1 ≤ C ∧ ∀ (junk : ℕ → ℝ) (V : ℝ → ℝ) (s : Sec ℝ),
    1 / 10 ^ 12 < s.max - s.min → s.max - s.min ≤ 1 → 37 * M * (s.max - s.min) ^ 16 ≤ 1 / 2 → SmoothOn M V s.min s.max →
    sectorError (EPS : ℝ) (etaCode junk) (s.max - s.min) (sectorVs V s) ≤ C * ((s.max - s.min) ^ 12 + 1 / 10 ^ 13) := by
  obtain ⟨C, hC, key⟩ := sectorError_le M hM
  refine ⟨38 * M * C, by nlinarith, fun junk V s h0 h1 hx hV => ?_⟩
  have hlt : s.min < s.max := by linarith [show (0 : ℝ) < 1 / 10 ^ 12 by norm_num]
  have hc := C87_code_coefficients (M := M) (H := s.max - s.min) (by linarith) hV h1 s le_rfl hlt le_rfl le_rfl
  have k := key (EPS : ℝ) _ (etaCode junk) (sectorVs V s) (oriented V s) s.min s.max (etaAtZero_code junk) (by linarith) (by rw [EPS_val]; exact h0) hlt h1
    (oriented_smooth hV) hc
  refine k.trans ?_
  obtain ⟨h, hh⟩ : ∃ h, h = s.max - s.min := ⟨_, rfl⟩
  rw [← hh] at h1 ⊢
  have h00 : 0 ≤ h := by linarith
  have p : h ^ 16 ≤ h ^ 12 := pow_le_pow_of_le_one h00 h1 (by norm_num)
  have p0 : 0 ≤ h ^ 12 := by positivity
  have hC0 : 0 ≤ C := by linarith
  rw [show 38 * M * C * (h ^ 12 + 1 / 10 ^ 13) = C * (38 * M * (h ^ 12 + 1 / 10 ^ 13)) by ring]
  refine mul_le_mul_of_nonneg_left ?_ hC0
  have q1 := mul_le_mul_of_nonneg_left p (show 0 ≤ 37 * M by linarith)
  have q2 : h ^ 12 ≤ M * h ^ 12 := le_mul_of_one_le_left p0 hM
  have e : 38 * M * (h ^ 12 + 1 / 10 ^ 13) = 37 * M * h ^ 12 + M * h ^ 12 + 38 * M / 10 ^ 13 := by ring
  rw [e]
  linarith

/-- **C101.** Without jumps the automatic mesh is finite and small for every potential, every tolerance and every error
estimate whatever (NaN included): at most one sector is narrower than `min(0.33 L, 1e-4)`. -/
theorem C101_sector_count_any (err : Sec ℝ → Option ℝ) (cmp : Sec ℝ → Sec ℝ → Bool) (tol a b : ℝ) (htol : 0 < tol) (hab : a < b) :
    ∃ fuel₀ r, (∀ fuel, fuel₀ ≤ fuel → autoBuild fuel (ErrOracle.ofError err (fun x => x ^ (1 / (((14 : ℕ) : ℝ) + 1))) tol) cmp [] a b = .ok r) ∧
      FewSectors (min (33 / 100 * (b - a)) (1 / 10000)) a b r.sectors := by
  have hO := lawful_ofError err tol htol 14
  obtain ⟨fuel₀, r, hr, -, -⟩ := C04_automatic_terminates _ hO cmp [] a b hab (by simp) (by simp)
  have hw := auto_wide (J := []) (g := 1 / 1000) (m := min (33 / 100 * (b - a)) (1 / 10000)) _ hO (by simp) (fun _ _ _ _ _ s _ _ hw _ => hw.le) hab
    (by simp) (lt_min (by linarith) (by norm_num)) ((min_le_right _ _).trans (by norm_num)) (min_le_left _ _) _ (hr fuel₀ le_rfl)
    (fun t _ h => by simp [EndsAtJump] at h)
  exact ⟨fuel₀, r, hr, hw.1, hw.2⟩

/-- On every sector without a jump in its interior the potential is smooth and its coefficients are accurate to `τ`. -/
def SmoothBetween (M τ : ℝ) (J : List ℝ) (a b : ℝ) (vs : Sec ℝ → ℕ → ℝ) : Prop :=
  ∀ s : Sec ℝ, a ≤ s.min → s.min < s.max → s.max ≤ b → s.max - s.min ≤ 1 → (∀ j ∈ J, ¬ (s.min < j ∧ j < s.max)) →
    ∃ W, SmoothOn M W s.min s.max ∧ CoeffWithin τ (oriented W s) s.min s.max (vs s)

theorem rejects (M : ℝ) (hM : 1 ≤ M) : ∃ C : ℝ, 1 ≤ C ∧ ∀ (eps τ tol g : ℝ) (eta : ℕ → ℝ → ℕ → ℝ) (vs : Sec ℝ → ℕ → ℝ) (J : List ℝ) (a b : ℝ),
    EtaAtZero eta → eps ≤ 1 / 1000 → τ ≤ 1 → SmoothBetween M τ J a b vs → g ≤ 1 → C * (g ^ 12 + τ) ≤ tol →
    RejectsBetween (errOracle eps eta vs tol) J g a b := by
  obtain ⟨C, hC, key⟩ := sectorError_le M hM
  refine ⟨C, hC, fun eps τ tol g eta vs J a b he heps hτ1 hV hg1 htol l r hl hr hfree s h1 h2 h3 h4 => ?_⟩
  by_contra hlt
  have hlt := not_le.mp hlt
  have hpos : s.min < s.max := by linarith
  have hs1 : s.max - s.min ≤ 1 := by linarith
  obtain ⟨W, hW, hc⟩ := hV s (hl.trans h1) hpos (h2.trans hr) hs1 (fun j hj hj2 => hfree j hj ⟨h1.trans_lt hj2.1, hj2.2.trans_le h2⟩)
  have k := key eps τ eta (vs s) (oriented W s) s.min s.max he hτ1 (by linarith) hpos hs1 (oriented_smooth hW) hc
  have p : (s.max - s.min) ^ 12 ≤ g ^ 12 := pow_le_pow_left₀ (by linarith) hlt.le 12
  have k2 := k.trans ((mul_le_mul_of_nonneg_left (add_le_add_left p τ) (by linarith)).trans htol)
  simp only [errOracle, ErrOracle.ofError, errOf, if_neg (show ¬ s.max - s.min = 0 by linarith), ccmp_lt, decide_eq_true_eq] at h4
  linarith

/-- **C101.** On a smooth potential without jumps the number of sectors is at most `1 + L / min(0.33 L, g / 10)` for every
`g ≤ 1` with `C (g^12 + τ) ≤ tol`: about `tol^(-1/12)` sectors, wherever the tolerance is above the accuracy of the
coefficients. `C` depends on the smoothness only. -/
theorem C101_sector_count (M : ℝ) (hM : 1 ≤ M) : ∃ C : ℝ, 1 ≤ C ∧ ∀ (eps τ tol g : ℝ) (eta : ℕ → ℝ → ℕ → ℝ) (vs : Sec ℝ → ℕ → ℝ) (V : ℝ → ℝ) (a b : ℝ),
    EtaAtZero eta → eps ≤ 1 / 1000 → τ ≤ 1 → a < b → SmoothOn M V a b → SectorCoeffs τ V a b 1 vs →
    0 < g → g ≤ 1 → 0 < tol → C * (g ^ 12 + τ) ≤ tol →
    ∃ fuel₀ r, (∀ fuel, fuel₀ ≤ fuel → autoMeshOf eps eta vs tol fuel [] a b = .ok r) ∧
      FewSectors (min (33 / 100 * (b - a)) (g / 10)) a b r.sectors := by
  obtain ⟨C, hC, key⟩ := rejects M hM
  refine ⟨C, hC, fun eps τ tol g eta vs V a b he heps hτ1 hab hV hc hg0 hg1 ht htol => ?_⟩
  have hO := errOracle_lawful eps eta vs ht
  have hg := key eps τ tol g eta vs [] a b he heps hτ1 (fun s h1 h2 h3 h4 _ => ⟨V, hV.mono h1 h3, hc s h1 h2 h3 h4⟩) hg1 htol
  obtain ⟨fuel₀, r, hr, -, -⟩ := C04_automatic_terminates (errOracle eps eta vs tol) hO (fun a b => decide (vs a 0 < vs b 0)) [] a b hab
    (by simp) (by simp)
  have hw := auto_wide (J := []) (g := g) (m := min (33 / 100 * (b - a)) (g / 10)) _ hO (by simp) hg hab (by simp)
    (lt_min (by linarith) (by linarith)) (min_le_right _ _) (min_le_left _ _) _ (hr fuel₀ le_rfl)
    (fun t _ h => by simp [EndsAtJump] at h)
  exact ⟨fuel₀, r, hr, hw.1, hw.2⟩

/-- C101 for `V = x²` on `[-1, 1]`: for every tolerance there is a `g` that meets the hypotheses. -/
example (tol : ℝ) (htol : 0 < tol) (junk : ℕ → ℝ) : ∃ m : ℝ, 0 < m ∧ ∃ fuel₀ r, (∀ fuel, fuel₀ ≤ fuel →
    autoMeshOf (EPS : ℝ) (etaCode junk) (exactVs fun x => x ^ 2) tol fuel [] (-1) 1 = .ok r) ∧ FewSectors m (-1) 1 r.sectors := by
  obtain ⟨C, hC, key⟩ := C101_sector_count 2 (by norm_num)
  have hg : 0 < min 1 (tol / C) := lt_min one_pos (div_pos htol (by linarith))
  refine ⟨min (33 / 100 * (1 - -1)) (min 1 (tol / C) / 10), lt_min (by norm_num) (by linarith),
    key (EPS : ℝ) 0 tol (min 1 (tol / C)) (etaCode junk) (exactVs fun x => x ^ 2) (fun x => x ^ 2) (-1) 1 (etaAtZero_code junk)
    (by rw [EPS_val]; norm_num) (by norm_num) (by norm_num) osc_smooth (exact_coeffs _ _ _ _) hg (min_le_left _ _) htol ?_⟩
  have h1 : (min 1 (tol / C)) ^ 12 ≤ min 1 (tol / C) := pow_le_of_le_one hg.le (min_le_left _ _) (by norm_num)
  have h2 : min 1 (tol / C) ≤ tol / C := min_le_right _ _
  rw [add_zero]
  calc C * (min 1 (tol / C)) ^ 12 ≤ C * (tol / C) := mul_le_mul_of_nonneg_left (h1.trans h2) (by linarith)
    _ = tol := by field_simp

/-! ### C102 -/

/-- **C102** (what holds). With jumps, and a potential that is smooth between them, the same bound holds if no sector that ends
at a listed jump came out narrower than `m`. -/
theorem C102_sector_count_partial (M : ℝ) (hM : 1 ≤ M) : ∃ C : ℝ, 1 ≤ C ∧ ∀ (eps τ tol g m : ℝ) (eta : ℕ → ℝ → ℕ → ℝ) (vs : Sec ℝ → ℕ → ℝ)
    (a b : ℝ) (jumps : List ℝ), EtaAtZero eta → eps ≤ 1 / 1000 → τ ≤ 1 → a < b → jumps.Pairwise (· < ·) → (∀ j ∈ jumps, a < j ∧ j < b) →
    SmoothBetween M τ jumps a b vs → g ≤ 1 → 0 < tol → C * (g ^ 12 + τ) ≤ tol → 0 < m → m ≤ g / 10 → m ≤ 33 / 100 * (b - a) →
    ∃ fuel₀ r, (∀ fuel, fuel₀ ≤ fuel → autoMeshOf eps eta vs tol fuel jumps a b = .ok r) ∧
      ((∀ t ∈ r.sectors, EndsAtJump jumps t → m ≤ t.max - t.min) → FewSectors m a b r.sectors) := by
  obtain ⟨C, hC, key⟩ := rejects M hM
  refine ⟨C, hC, fun eps τ tol g m eta vs a b jumps he heps hτ1 hab hJ hin hV hg1 ht htol hm0 hm hm2 => ?_⟩
  have hO := errOracle_lawful eps eta vs ht
  have hg := key eps τ tol g eta vs jumps a b he heps hτ1 hV hg1 htol
  obtain ⟨fuel₀, r, hr, -, -⟩ := C04_automatic_terminates (errOracle eps eta vs tol) hO (fun a b => decide (vs a 0 < vs b 0)) jumps a b hab hJ hin
  refine ⟨fuel₀, r, hr, fun hcut => ?_⟩
  have hw := auto_wide _ hO hJ hg hab hin hm0 hm hm2 _ (hr fuel₀ le_rfl) hcut
  exact ⟨hw.1, hw.2⟩

/-- C102's hypotheses for `V = x²` on `[-1, 1]` with a jump listed at `1 / 3`. -/
example (tol : ℝ) (htol : 0 < tol) (junk : ℕ → ℝ) : ∃ m : ℝ, 0 < m ∧ ∃ fuel₀ r, (∀ fuel, fuel₀ ≤ fuel →
    autoMeshOf (EPS : ℝ) (etaCode junk) (exactVs fun x => x ^ 2) tol fuel [1 / 3] (-1) 1 = .ok r) ∧
    ((∀ t ∈ r.sectors, EndsAtJump [1 / 3] t → m ≤ t.max - t.min) → FewSectors m (-1) 1 r.sectors) := by
  obtain ⟨C, hC, key⟩ := C102_sector_count_partial 2 (by norm_num)
  have hg : 0 < min 1 (tol / C) := lt_min one_pos (div_pos htol (by linarith))
  have hg1 : min 1 (tol / C) ≤ 1 := min_le_left _ _
  refine ⟨min 1 (tol / C) / 10, by linarith,
    key (EPS : ℝ) 0 tol (min 1 (tol / C)) (min 1 (tol / C) / 10) (etaCode junk) (exactVs fun x => x ^ 2) (-1) 1 [1 / 3] (etaAtZero_code junk)
    (by rw [EPS_val]; norm_num) (by norm_num) (by norm_num) (by simp) (by simp; norm_num)
    (fun s h1 h2 h3 h4 _ => ⟨fun x => x ^ 2, osc_smooth.mono h1 h3, exact_coeffs (fun x => x ^ 2) (-1) 1 1 s h1 h2 h3 h4⟩)
    hg1 htol ?_ (by linarith) le_rfl (by linarith)⟩
  have h1 : (min 1 (tol / C)) ^ 12 ≤ min 1 (tol / C) := pow_le_of_le_one hg.le hg1 (by norm_num)
  have h2 : min 1 (tol / C) ≤ tol / C := min_le_right _ _
  rw [add_zero]
  calc C * (min 1 (tol / C)) ^ 12 ≤ C * (tol / C) := mul_le_mul_of_nonneg_left (h1.trans h2) (by linarith)
    _ = tol := by field_simp

/-- **C102.** Every sector of width at most 1e-12 of the zero potential has the estimate 1 or more: the partial step it is
compared with counts as no step at all. So it is neither shrunk (it is narrower than 1e-3) nor enlarged. -/
theorem C102_short_sector_estimate (junk : ℕ → ℝ) {h : ℝ} (h0 : 0 < h) (h1 : h ≤ 1 / 10 ^ 12) {v : ℕ → ℝ} (hv : ∀ k, 1 ≤ k → v k = 0) :
    1 ≤ sectorError (EPS : ℝ) (etaCode junk) h v := sectorError_tiny (etaAtZero_code junk) h0 (by rw [EPS_val]; exact h1) hv

theorem zero_vs (s : Sec ℝ) (k : ℕ) : sectorVs (fun _ => 0) s k = 0 := by
  have hl : ∀ (n i r j : ℕ), Legendre.integrateLoop n i (fun _ => (0 : ℝ)) r j 0 = 0 := by
    intro n i r
    induction r with
    | zero => intro j; rfl
    | succ r ih => intro j; simp only [Legendre.integrateLoop, mul_zero, add_zero]; exact ih _
  have hc : Legendre.getCoefficients matsliseN (fun _ => (0 : ℝ)) s.min s.max k = 0 := by
    simp only [Legendre.getCoefficients, Legendre.integrate, mul_zero, hl, zero_div]
  unfold sectorVs
  simp only [hc, zero_mul, ite_self]

/-- **C102 is false of the code.** For the zero potential on `[0, 1]`, every tolerance up to 2 and every `n` there is a position
for a single listed jump for which the automatic mesh has more than `n` sectors. -/
theorem C102_jump_near_the_end (junk : ℕ → ℝ) (tol : ℝ) (htol : 0 < tol) (h2 : tol ≤ 2) (n : ℕ) :
    ∃ j : ℝ, 0 < j ∧ j < 1 ∧ ∃ fuel₀ r, (∀ fuel, fuel₀ ≤ fuel → autoMesh (etaCode junk) (fun _ => 0) tol fuel [j] 0 1 = .ok r) ∧
      n < r.sectors.length := by
  have hO := errOracle_lawful (CCmp.lit EPS) (etaCode junk) (sectorVs fun _ => 0) htol
  obtain ⟨ε, hε⟩ : ∃ ε : ℝ, ε = min (1 / 10 ^ 12 : ℝ) (1 / (2 * ((n : ℝ) + 1))) := ⟨_, rfl⟩
  have hn0 : (0 : ℝ) < 2 * (n + 1) := by positivity
  have e0 : 0 < ε := by rw [hε]; exact lt_min (by norm_num) (by positivity)
  have e1 : ε ≤ 1 / 10 ^ 12 := by rw [hε]; exact min_le_left _ _
  have e2 : ε ≤ 1 / (2 * (n + 1)) := by rw [hε]; exact min_le_right _ _
  have hsm : ε < 1 / 2 * (1 - 0) := e1.trans_lt (by norm_num)
  obtain ⟨fuel₀, r, hr, -, -⟩ := C04_automatic_terminates (errOracle (CCmp.lit EPS) (etaCode junk) (sectorVs fun _ => 0) tol) hO
    (fun a b => decide (sectorVs (fun _ => 0) a 0 < sectorVs (fun _ => 0) b 0)) [1 - ε] 0 1 (by norm_num) (by simp) (by
      intro j hj
      rw [List.mem_singleton] at hj
      subst hj
      constructor <;> linarith)
  have hz : ∀ s : Sec ℝ, sectorVs (fun _ => 0) s 0 = 0 := fun s => zero_vs s 0
  refine ⟨1 - ε, by linarith, by linarith, fuel₀, r, hr, ?_⟩
  have hg : NeverGrows (errOracle (CCmp.lit EPS) (etaCode junk) (sectorVs fun _ => 0) tol) ε := by
    intro s h3 h4
    have hs : 1 ≤ sectorError (EPS : ℝ) (etaCode junk) (s.max - s.min) (sectorVs (fun _ => 0) s) :=
      C102_short_sector_estimate junk h3 (h4.trans e1) (fun k _ => zero_vs s k)
    simp only [errOracle, ErrOracle.ofError, errOf, if_neg (show ¬ s.max - s.min = 0 by linarith), ccmp_lt, ccmp_lit, decide_eq_false_iff_not, not_lt]
    push_cast
    linarith
  have hlen := tiny_build _ hO e0 (by norm_num) hg (e1.trans (by norm_num)) hsm (fun a b => by simp [hz]) (hr fuel₀ le_rfl)
  by_contra hle
  have hle : (r.sectors.length : ℝ) ≤ n := by exact_mod_cast not_lt.mp hle
  have h5 : (r.sectors.length : ℝ) * ε ≤ n * (1 / (2 * (n + 1))) := mul_le_mul hle e2 e0.le (by positivity)
  have h6 : (n : ℝ) * (1 / (2 * (n + 1))) < 1 / 2 := by
    rw [mul_one_div, div_lt_iff₀ hn0]; linarith
  linarith

end Verif.Solver
