import Verif.Model.SectorError
import Verif.Lemmas.SectorStep
import Verif.Lemmas.TaylorLegendre
import Verif.Lemmas.OdeExist
import Verif.Props.Formulas
import Verif.Props.CalcT
import Verif.Props.Eta

/-!
# The local error estimate of a sector: bounds
-/
namespace Verif.Solver
open Verif.Mesh Verif.YT Verif.CalcT Verif.Formulas

/-- The η functions are exact at 0. -/
def EtaAtZero (eta : ℕ → ℝ → ℕ → ℝ) : Prop := ∀ n, 2 ≤ n → ∀ i, i < n → eta n 0 i = Eta.eta i 0

theorem etaAtZero_exact : EtaAtZero etaExact := fun _ _ _ _ => rfl

theorem etaAtZero_code (junk : ℕ → ℝ) : EtaAtZero (etaCode junk) := by
  intro n hn i hi
  obtain ⟨k, a, hk, hr, ha, -, hc⟩ := Eta.small_closed n junk 0 (by norm_num)
  have hk2 : n + 2 ≤ k := by rw [hk]; exact Eta.lastEta_ge _ _
  have hak : a k = Eta.eta k 0 := by
    rw [ha, Eta.eta_zero_right, Finset.sum_eq_single 0 (fun q _ hq => by simp [hq]) (by simp)]
    simp [Eta.coef, Eta.evenFact]
  have down : ∀ j, j ≤ k → a (k - j) = Eta.eta (k - j) 0 := by
    intro j
    induction j with
    | zero => intro _; simpa using hak
    | succ j ih =>
      intro hj
      have e : k - j = k - (j + 1) + 1 := by omega
      have h1 := hr (k - (j + 1)) (by omega)
      have h2 := Eta.eta_rec (k - (j + 1)) 0
      rw [h1, h2, ← e, ih (by omega)]
      ring
  have := down (k - i) (by omega)
  rw [show k - (k - i) = i by omega] at this
  unfold etaCode
  rw [hc i hi, this]

/-- At the energy `vs[0]` only the values of η at 0 matter. -/
theorem calcH_atZero {eta : ℕ → ℝ → ℕ → ℝ} (he : EtaAtZero eta) (h : ℝ) (v : ℕ → ℝ) :
    (calcH eta (mkSec h v) (v 0)).t = (calcH etaExact (mkSec h v) (v 0)).t := by
  refine M2.ext' (fun p => ?_)
  rw [calcH_of p, calcH_of p]
  simp only [sub_self, zero_mul]
  congr 1
  · refine Finset.sum_congr rfl (fun i hi => ?_)
    rw [he 10 (by norm_num) i (Finset.mem_range.mp hi)]
    rfl

theorem calcDelta_atZero {eta : ℕ → ℝ → ℕ → ℝ} (he : EtaAtZero eta) {h : ℝ} (hh : h ≠ 0) (v : ℕ → ℝ) (δ : ℝ) :
    (calcDelta eta (mkSec h v) (v 0) δ).t = (calcDelta etaExact (mkSec h v) (v 0) δ).t := by
  refine M2.ext' (fun p => ?_)
  rw [calcDelta_of p _ hh, calcDelta_of p _ hh]
  simp only [sub_self, zero_mul]
  congr 1
  · refine Finset.sum_congr rfl (fun i hi => ?_)
    rw [he 9 (by norm_num) i (Finset.mem_range.mp hi)]
    rfl

theorem SmoothOn.weaken {M M' : ℝ} {W : ℝ → ℝ} {a b : ℝ} (h : SmoothOn M W a b) (hM : M ≤ M') : SmoothOn M' W a b := by
  obtain ⟨D, h0, h1, h2⟩ := h
  exact ⟨D, h0, h1, fun j hj x hx => (h2 j hj x hx).trans hM⟩

/-- Two maps that both follow the solutions are close to each other. -/
theorem near_entries {W : ℝ → ℝ} {E a b : ℝ} (hab : a ≤ b) (hW : ContinuousOn W (Set.Icc a b)) {m n : M2 ℝ} {e e' : ℝ}
    (h1 : Near W E a b (mapOf m) a b e) (h2 : Near W E a b (mapOf n) a b e') :
    |m.a - n.a| ≤ e + e' ∧ |m.b - n.b| ≤ e + e' ∧ |m.c - n.c| ≤ e + e' ∧ |m.d - n.d| ≤ e + e' := by
  have col : ∀ u v : ℝ, |u| ≤ 1 → |v| ≤ 1 → max |u| |v| = 1 →
      |(m.a * u + m.b * v) - (n.a * u + n.b * v)| ≤ e + e' ∧ |(m.c * u + m.d * v) - (n.c * u + n.d * v)| ≤ e + e' := by
    intro u v _ _ huv
    obtain ⟨y, dy, hy, y0, dy0⟩ := exists_solution (E := E) hab hW u v
    have k1 := h1 y dy hy
    have k2 := h2 y dy hy
    rw [y0, dy0] at k1 k2
    have hs : sz (u, v) = 1 := huv
    rw [hs, mul_one] at k1 k2
    have a1 := (le_sz1 _).trans k1
    have a2 := (le_sz2 _).trans k1
    have b1 := (le_sz1 _).trans k2
    have b2 := (le_sz2 _).trans k2
    simp only [mapOf, mv, Prod.fst_sub, Prod.snd_sub] at a1 a2 b1 b2
    rw [abs_le] at a1 a2 b1 b2
    constructor <;> rw [abs_le] <;> constructor <;> linarith
  have c1 := col 1 0 (by simp) (by simp) (by simp)
  have c2 := col 0 1 (by simp) (by simp) (by simp)
  simp only [mul_one, mul_zero, add_zero, zero_add] at c1 c2
  exact ⟨c1.1, c2.1, c1.2, c2.2⟩

/-- One coefficient, scaled. -/
theorem coeff_small {M τ : ℝ} (hM : 1 ≤ M) {v : ℕ → ℝ} {W : ℝ → ℝ} {a b : ℝ} (hab : a < b) (h1 : b - a ≤ 1) (hW : SmoothOn M W a b)
    (hv : CoeffWithin τ W a b v) : ∀ k, 1 ≤ k → k < 16 → |v k| * (b - a) ^ k ≤ 527 * M * ((b - a) ^ k + τ) := by
  obtain ⟨w, -, -, wb, wd, -⟩ := Legendre.coeff_near hab h1 hW hv
  intro k hk1 hk
  have hτ := hv.nonneg
  set h := b - a with hh
  have h0 : 0 < h := by linarith
  have e1 : |v k| ≤ |v k - w k| + |w k| := by
    have := abs_add_le (v k - w k) (w k); rwa [sub_add_cancel] at this
  have p : 0 ≤ h ^ k := by positivity
  have e2 := mul_le_mul_of_nonneg_right e1 p
  have e3 := wd k hk
  have e4 := mul_le_mul_of_nonneg_right (wb k hk1) p
  have e5 : h ^ 16 ≤ h ^ k := pow_le_pow_of_le_one h0.le h1 (by omega)
  have e6 := mul_le_mul_of_nonneg_left e5 (show 0 ≤ 31 * M by linarith)
  have e7 : τ ≤ 527 * M * τ := by nlinarith
  unfold Legendre.tau at e3
  rw [add_mul] at e2
  have e8 : 527 * M * (h ^ k + τ) = 496 * M * h ^ k + 31 * M * h ^ k + 527 * M * τ := by ring
  rw [e8]
  linarith only [e2, e3, e4, e6, e7]

/-- A product of two scaled coefficients. -/
theorem coeff_prod {A h τ : ℝ} {v : ℕ → ℝ} {i j : ℕ} (hA : 0 ≤ A) (h0 : 0 ≤ h) (h1 : h ≤ 1) (hτ0 : 0 ≤ τ) (hτ1 : τ ≤ 1)
    (hi : |v i| * h ^ i ≤ A * (h ^ i + τ)) (hj : |v j| * h ^ j ≤ A * (h ^ j + τ)) (hij : 12 ≤ i + j) :
    |v i * v j| * h ^ (i + j) ≤ 3 * A ^ 2 * (h ^ 12 + τ) := by
  have e : |v i * v j| * h ^ (i + j) = (|v i| * h ^ i) * (|v j| * h ^ j) := by rw [abs_mul, pow_add]; ring
  rw [e]
  have pi : 0 ≤ h ^ i := by positivity
  have pj : 0 ≤ h ^ j := by positivity
  have qi : h ^ i ≤ 1 := pow_le_one₀ h0 h1
  have qj : h ^ j ≤ 1 := pow_le_one₀ h0 h1
  refine (mul_le_mul hi hj (by positivity) (by positivity)).trans ?_
  have e2 : A * (h ^ i + τ) * (A * (h ^ j + τ)) = A ^ 2 * (h ^ (i + j) + h ^ i * τ + h ^ j * τ + τ * τ) := by rw [pow_add]; ring
  rw [e2, mul_comm 3, mul_assoc]
  refine mul_le_mul_of_nonneg_left ?_ (by positivity)
  have e3 : h ^ (i + j) ≤ h ^ 12 := pow_le_pow_of_le_one h0 h1 hij
  have e4 : h ^ i * τ ≤ τ := mul_le_of_le_one_left hτ0 qi
  have e5 : h ^ j * τ ≤ τ := mul_le_of_le_one_left hτ0 qj
  have e6 : τ * τ ≤ τ := mul_le_of_le_one_left hτ0 hτ1
  have e7 : 0 ≤ h ^ 12 := by positivity
  linarith

theorem coeff_single {A h τ : ℝ} {v : ℕ → ℝ} {i : ℕ} (hA : 1 ≤ A) (h0 : 0 ≤ h) (h1 : h ≤ 1) (hτ0 : 0 ≤ τ)
    (hi : |v i| * h ^ i ≤ A * (h ^ i + τ)) (h12 : 12 ≤ i) : |v i| * h ^ i ≤ 3 * A ^ 2 * (h ^ 12 + τ) := by
  have e3 : h ^ i ≤ h ^ 12 := pow_le_pow_of_le_one h0 h1 h12
  have e4 := mul_le_mul_of_nonneg_left (add_le_add_left e3 τ) (show 0 ≤ A by linarith)
  have e5 : 0 ≤ h ^ 12 + τ := by positivity
  have e6 : A ≤ 3 * A ^ 2 := by nlinarith
  have e7 := mul_le_mul_of_nonneg_right e6 e5
  linarith

/-- The three polynomial parts. -/
theorem eLocPoly_le {A h τ : ℝ} {v : ℕ → ℝ} (hA : 1 ≤ A) (h0 : 0 ≤ h) (h1 : h ≤ 1) (hτ0 : 0 ≤ τ) (hτ1 : τ ≤ 1)
    (hv : ∀ k, 1 ≤ k → k < 16 → |v k| * h ^ k ≤ A * (h ^ k + τ)) :
    eLocU h v ≤ 3 * A ^ 2 * (h ^ 12 + τ) ∧ eLocUp h v ≤ 3 * A ^ 2 * (h ^ 12 + τ) ∧ eLocV h v ≤ 3 * A ^ 2 * (h ^ 12 + τ) := by
  have hA0 : 0 ≤ A := by linarith
  have pr : ∀ i j, 1 ≤ i → i < 16 → 1 ≤ j → j < 16 → 12 ≤ i + j → |v i * v j| * h ^ (i + j) ≤ 3 * A ^ 2 * (h ^ 12 + τ) :=
    fun i j a b c d e => coeff_prod hA0 h0 h1 hτ0 hτ1 (hv i a b) (hv j c d) e
  have sg : ∀ i, 12 ≤ i → i < 16 → |v i| * h ^ i ≤ 3 * A ^ 2 * (h ^ 12 + τ) :=
    fun i a b => coeff_single hA h0 h1 hτ0 (hv i (by omega) b) a
  have hB0 : 0 ≤ 3 * A ^ 2 * (h ^ 12 + τ) := by positivity
  obtain ⟨B, hB⟩ : ∃ B, B = 3 * A ^ 2 * (h ^ 12 + τ) := ⟨_, rfl⟩
  rw [← hB] at pr sg hB0 ⊢
  obtain ⟨P, hP⟩ : ∃ P : ℕ → ℕ → ℝ, ∀ i j, P i j = |v i * v j| * h ^ (i + j) := ⟨_, fun _ _ => rfl⟩
  obtain ⟨S, hS⟩ : ∃ S : ℕ → ℝ, ∀ i, S i = |v i| * h ^ i := ⟨_, fun _ => rfl⟩
  simp only [← hP] at pr
  simp only [← hS] at sg
  have sq : ∀ i, v i * v i = |v i * v i| := fun i => (abs_of_nonneg (mul_self_nonneg _)).symm
  refine ⟨?_, ?_, ?_⟩
  · have e : eLocU h v = 24 / 10000 * S 15 + 25 / 1000000 * P 7 7 +
        (18 / 1000000 * P 3 10 + 2 / 100000 * P 2 11 +
          6 / 1000000 * P 5 8 + 4 / 1000000 * P 4 9) := by
      simp only [hP, hS]; rw [← sq 7]; unfold eLocU; ring
    rw [e]
    linarith only [hB0, sg 15 (by norm_num) (by norm_num), pr 7 7 (by norm_num) (by norm_num) (by norm_num) (by norm_num) (by norm_num),
      pr 3 10 (by norm_num) (by norm_num) (by norm_num) (by norm_num) (by norm_num),
      pr 2 11 (by norm_num) (by norm_num) (by norm_num) (by norm_num) (by norm_num),
      pr 5 8 (by norm_num) (by norm_num) (by norm_num) (by norm_num) (by norm_num),
      pr 4 9 (by norm_num) (by norm_num) (by norm_num) (by norm_num) (by norm_num)]
  · have e : eLocUp h v = 2 / 10000 * P 7 7 + 3 / 10000 * P 5 9 +
        3 / 10000 * P 6 8 + 6 / 10000 * P 1 13 +
          5 / 10000 * P 2 12 + 4 / 10000 * P 3 11 := by
      simp only [hP]; rw [← sq 7]; unfold eLocUp; ring
    rw [e]
    linarith only [hB0, pr 7 7 (by norm_num) (by norm_num) (by norm_num) (by norm_num) (by norm_num),
      pr 5 9 (by norm_num) (by norm_num) (by norm_num) (by norm_num) (by norm_num),
      pr 6 8 (by norm_num) (by norm_num) (by norm_num) (by norm_num) (by norm_num),
      pr 1 13 (by norm_num) (by norm_num) (by norm_num) (by norm_num) (by norm_num),
      pr 2 12 (by norm_num) (by norm_num) (by norm_num) (by norm_num) (by norm_num),
      pr 3 11 (by norm_num) (by norm_num) (by norm_num) (by norm_num) (by norm_num)]
  · have e : eLocV h v = 2 / 10000 * S 14 + 1 / 100000 * P 6 6 := by
      simp only [hP, hS]; rw [← sq 6]; unfold eLocV; ring
    rw [e]
    linarith only [hB0, sg 14 (by norm_num) (by norm_num), pr 6 6 (by norm_num) (by norm_num) (by norm_num) (by norm_num) (by norm_num)]

theorem calcTWith_long {eps : ℝ} {eta : ℕ → ℝ → ℕ → ℝ} {s : TSec ℝ} {E δ : ℝ} (h0 : 0 ≤ δ) (hδ : eps < δ) :
    calculateTWith eps eta s E δ false = calcDelta eta s E δ := by
  unfold calculateTWith Eta.absK
  simp only [ccmp_lt, ccmp_le, h0.not_gt, decide_false, Bool.false_eq_true, if_false, Bool.false_and]
  rw [if_neg (by simpa using hδ)]

/-- The first part: the two matrices. -/
theorem eLoc0_le (M : ℝ) (hM : 1 ≤ M) : ∃ C : ℝ, 0 ≤ C ∧ ∀ (eps τ : ℝ) (eta : ℕ → ℝ → ℕ → ℝ) (v : ℕ → ℝ) (W : ℝ → ℝ) (a b : ℝ),
    EtaAtZero eta → τ ≤ 1 → eps < b - a → a < b → b - a ≤ 1 → SmoothOn M W a b → CoeffWithin τ W a b v →
    eLoc0 eps eta (b - a) v ≤ C * ((b - a) ^ 14 + τ) := by
  obtain ⟨C1, hC1, k1⟩ := full_near (32 * M) (by linarith)
  obtain ⟨C2, hC2, k2⟩ := delta_near (32 * M) (by linarith)
  refine ⟨C1 + C2, by linarith, fun eps τ eta v W a b he hτ1 heps hab h1 hW hv => ?_⟩
  have hτ0 := hv.nonneg
  have hW' := SmoothOn.weaken hW (show M ≤ 32 * M by linarith)
  have hv0 : |v 0| ≤ 32 * M := by
    have e1 := hv.near 0 (by norm_num)
    have e2 : |legendreCoeff W a b 0 - legendreCoeff (fun _ => 0) a b 0| ≤ 31 * M :=
      Legendre.legendreCoeff_sub_le hab hW.continuousOn continuousOn_const (fun x hx => by rw [sub_zero]; exact hW.bound hx) (by norm_num)
    have e3 : legendreCoeff (fun _ => 0) a b 0 = 0 := by simp [legendreCoeff]
    rw [e3, sub_zero] at e2
    rw [pow_zero, mul_one] at e1
    rw [abs_le] at *
    constructor <;> linarith
  have n1 := k1 0 τ etaExact v W a b (v 0) etaWithin_exact (by norm_num) hτ1 hab h1 hW' hv hv0
  have n2 := k2 0 τ etaExact v W a b (v 0) (b - a) etaWithin_exact (by norm_num) hτ1 hab h1 hW' hv hv0 (by linarith) le_rfl
  rw [show a + (b - a) = b by ring] at n2
  obtain ⟨da, db, dc, dd⟩ := near_entries hab.le hW.continuousOn n1 n2
  rw [← calcH_atZero he, ← calcDelta_atZero he (by linarith : b - a ≠ 0)] at da db dc dd
  unfold eLoc0
  simp only
  rw [calcTWith_long (by linarith) heps]
  obtain ⟨h, hh⟩ : ∃ h, h = b - a := ⟨_, rfl⟩
  rw [← hh] at da db dc dd h1 ⊢
  have h0 : 0 < h := by linarith
  have p17 : h ^ 17 ≤ h ^ 15 := pow_le_pow_of_le_one h0.le h1 (by norm_num)
  have hb : C1 * (h ^ 17 + h * τ + 0) + C2 * (h ^ 15 + h * τ + 0) ≤ (C1 + C2) * (h ^ 14 + τ) * h := by
    have := mul_le_mul_of_nonneg_left p17 hC1
    nlinarith
  have hbig : (C1 + C2) * (h ^ 14 + τ) * h ≤ (C1 + C2) * (h ^ 14 + τ) := mul_le_of_le_one_right (by positivity) h1
  refine max_le (max_le ?_ ?_) (max_le ?_ ?_)
  · rw [mul_one]; linarith
  · rw [abs_mul, abs_of_pos (by positivity : 0 < 1 / h), mul_one_div, div_le_iff₀ h0]; linarith
  · rw [abs_mul, abs_of_pos h0]
    exact (mul_le_of_le_one_right (abs_nonneg _) h1).trans (by linarith)
  · rw [mul_one]; linarith

/-- **The estimate is small on short sectors.** -/
theorem sectorError_le (M : ℝ) (hM : 1 ≤ M) : ∃ C : ℝ, 1 ≤ C ∧ ∀ (eps τ : ℝ) (eta : ℕ → ℝ → ℕ → ℝ) (v : ℕ → ℝ) (W : ℝ → ℝ) (a b : ℝ),
    EtaAtZero eta → τ ≤ 1 → eps < b - a → a < b → b - a ≤ 1 → SmoothOn M W a b → CoeffWithin τ W a b v →
    sectorError eps eta (b - a) v ≤ C * ((b - a) ^ 12 + τ) := by
  obtain ⟨C, hC, key⟩ := eLoc0_le M hM
  refine ⟨1 + C + 3 * (527 * M) ^ 2, by have := sq_nonneg (527 * M); linarith, fun eps τ eta v W a b he hτ1 heps hab h1 hW hv => ?_⟩
  have hτ0 := hv.nonneg
  have k0 := key eps τ eta v W a b he hτ1 heps hab h1 hW hv
  obtain ⟨ku, kup, kv⟩ := eLocPoly_le (A := 527 * M) (by linarith) (by linarith : 0 ≤ b - a) h1 hτ0 hτ1 (coeff_small hM hab h1 hW hv)
  unfold sectorError
  obtain ⟨h, hh⟩ : ∃ h, h = b - a := ⟨_, rfl⟩
  rw [← hh] at k0 ku kup kv h1 ⊢
  have h0 : 0 < h := by linarith
  have p : h ^ 14 ≤ h ^ 12 := pow_le_pow_of_le_one h0.le h1 (by norm_num)
  have p0 : 0 ≤ h ^ 12 + τ := by positivity
  have q0 := mul_le_mul_of_nonneg_left (add_le_add_left p τ) hC
  have q1 : 0 ≤ C * (h ^ 12 + τ) := by positivity
  have q2 : 0 ≤ 3 * (527 * M) ^ 2 * (h ^ 12 + τ) := by positivity
  have e : (1 + C + 3 * (527 * M) ^ 2) * (h ^ 12 + τ) = (h ^ 12 + τ) + C * (h ^ 12 + τ) + 3 * (527 * M) ^ 2 * (h ^ 12 + τ) := by ring
  rw [e]
  refine max_le (by linarith) (max_le (by linarith) (max_le (by linarith) (by linarith)))

theorem sectorError_nonneg (eps : ℝ) (eta : ℕ → ℝ → ℕ → ℝ) (h : ℝ) (v : ℕ → ℝ) : 0 ≤ sectorError eps eta h v :=
  le_max_of_le_left (le_max_of_le_left (le_max_of_le_left (abs_nonneg _)))

/-- A zero-length partial step: the estimate on a sector with constant potential and width at most `eps` is 1. -/
theorem sectorError_tiny {eps : ℝ} {eta : ℕ → ℝ → ℕ → ℝ} (he : EtaAtZero eta) {h : ℝ} (h0 : 0 < h) (h1 : h ≤ eps) {v : ℕ → ℝ}
    (hv : ∀ k, 1 ≤ k → v k = 0) : 1 ≤ sectorError eps eta h v := by
  refine le_max_of_le_left (le_max_of_le_left (le_max_of_le_right ?_))
  have hB : calculateTWith eps eta (mkSec h v) (v 0) h false = T.one := by
    unfold calculateTWith Eta.absK
    simp only [ccmp_lt, ccmp_le, h0.not_gt, decide_false, Bool.false_eq_true, if_false]
    rw [if_pos (by simpa using h1)]
  have hA := constM_h eta h hv (v 0)
  rw [hB, hA]
  simp only [sub_self, zero_mul]
  rw [he 10 (by norm_num) 0 (by norm_num), he 10 (by norm_num) 1 (by norm_num)]
  have e1 : Eta.eta 1 0 = 1 := by simp [Eta.eta_zero_right, Eta.oddFact]
  have : ((constM 0 h (Eta.eta 0 0) (Eta.eta 1 0)).b - (T.one : T ℝ).t.b) * (1 / h) = 1 := by
    simp only [constM, T.one, e1]
    field_simp
    simp
  rw [this, abs_one]

end Verif.Solver
