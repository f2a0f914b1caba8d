import Verif.Lemmas.MatscsCode
import Verif.Lemmas.Taylor
import Verif.Lemmas.BlockNorm

/-!
# The transfer matrices of a sector of a coupled system
-/
namespace Verif.NP
open Verif.MFormulas Verif.Legendre Verif.YT
open scoped BigOperators

attribute [local instance] Matrix.linftyOpNormedAddCommGroup Matrix.linftyOpNormedSpace Matrix.linftyOpNormedRing Matrix.linftyOpNormedAlgebra

section
variable {n r : ℕ}

theorem iv_zero_one {l : NP} (hz : l.filter (fun m => m.j == 0) = [mk 0 0 0 [] LL]) {v : ℕ → Mat n ℝ} {e : ℕ → ℝ → Mat n ℝ} (e0 : e 0 0 = 1) (h : ℝ) : iv l v e h 0 = 1 := by
  unfold iv
  rw [ev_zero v _ h l, hz, ev_mk]
  simp [word, atd, e0, LL]

theorem iv_zero_zero {l : NP} (hz : l.filter (fun m => m.j == 0) = []) {v : ℕ → Mat n ℝ} {e : ℕ → ℝ → Mat n ℝ} (h : ℝ) : iv l v e h 0 = 0 := by
  unfold iv
  rw [ev_zero v _ h l, hz]
  simp [ev]

/-! ### The blocks of `calcFromVEd` -/

/-- the coefficients in the original basis -/
def origV (c : ℕ → Mat n ℝ) (s : Mesh.Sec ℝ) (k : ℕ) : Mat n ℝ := (if s.dir = .backward ∧ k % 2 = 1 then (-1 : ℝ) else 1) • c k

/-- the computed η functions in the original basis -/
def codeE (eta : ℕ → ℝ → ℕ → ℝ) (Q : Mat n ℝ) (Z : Fin n → ℝ) (N : ℕ) (δ : ℝ) (i : ℕ) : Mat n ℝ := Q * Matrix.diagonal (fun j => eta N (Z j * δ ^ 2) i) * Q.transpose

theorem conj_back {Q : Mat n ℝ} (hQ : Q.transpose * Q = 1) (c : ℕ → Mat n ℝ) (s : Mesh.Sec ℝ) (k : ℕ) : Q * (mkMSec c Q s).vs k * Q.transpose = origV c s k := by
  have h1 : Q * Q.transpose = 1 := mul_eq_one_comm.mp hQ
  show Q * ((if s.dir = .backward ∧ k % 2 = 1 then (-1 : ℝ) else 1) • (Q.transpose * c k * Q)) * Q.transpose = _
  rw [Matrix.mul_smul, Matrix.smul_mul, origV]
  congr 1
  have : Q * (Q.transpose * c k * Q) * Q.transpose = (Q * Q.transpose) * c k * (Q * Q.transpose) := by simp only [Matrix.mul_assoc]
  rw [this, h1, Matrix.one_mul, Matrix.mul_one]

theorem calc_blocks {Q : Mat n ℝ} (hQ : Q.transpose * Q = 1) (q : MTerm → ℝ) (eta : ℕ → ℝ → ℕ → ℝ) (c : ℕ → Mat n ℝ) (s : Mesh.Sec ℝ) {δ : ℝ} {VEd : Fin n → ℝ} {Z : Fin n → ℝ}
    (hZ : ∀ j, VEd j = Z j * δ) (useH : Bool) :
    let t := (calcFromVEd q eta (mkMSec c Q s) δ VEd useH).t
    let e := codeE eta Q Z (etaN useH) δ
    t.a = evc q (origV c s) e (s.max - s.min) δ (lst useH MEntry4.a) ∧ t.b = evc q (origV c s) e (s.max - s.min) δ (lst useH MEntry4.b) ∧
    t.c = δ • ((Q * Matrix.diagonal Z * Q.transpose) * e 1) + evc q (origV c s) e (s.max - s.min) δ (lst useH MEntry4.c) ∧
    t.d = evc q (origV c s) e (s.max - s.min) δ (lst useH MEntry4.d) := by
  have hv : (fun k => Q * (mkMSec c Q s).vs k * Q.transpose) = origV c s := funext (conj_back hQ c s)
  have he : ∀ N, (fun i => Q * (Matrix.diagonal (fun j => eta N (VEd j * δ) i) : Mat n ℝ) * Q.transpose) = codeE eta Q Z N δ := by
    intro N; funext i; unfold codeE
    congr 3; funext j; rw [hZ]; congr 1; ring
  have hc : ∀ N, Q * ((Matrix.diagonal (fun j => eta N (VEd j * δ) 1) : Mat n ℝ) * Matrix.diagonal VEd) * Q.transpose = δ • ((Q * Matrix.diagonal Z * Q.transpose) * codeE eta Q Z N δ 1) := by
    intro N
    rw [← congrFun (he N) 1, ← conj_mul hQ, Matrix.diagonal_mul_diagonal, Matrix.diagonal_mul_diagonal, ← Matrix.smul_mul, ← Matrix.mul_smul]
    congr 2
    ext k l
    by_cases hkl : k = l
    · subst hkl; simp [hZ]; ring
    · simp [Matrix.diagonal_apply_ne _ hkl]
  have key : ∀ l : List FT, ∀ N, Q * evc q (mkMSec c Q s).vs (fun i => (Matrix.diagonal (fun j => eta N (VEd j * δ) i) : Mat n ℝ)) (s.max - s.min) δ l * Q.transpose =
      evc q (origV c s) (codeE eta Q Z N δ) (s.max - s.min) δ l := by
    intro l N
    rw [conj_evc hQ, hv, he]
  cases useH with
  | true =>
    obtain ⟨e, he'⟩ : ∃ e : ℕ → Mat n ℝ, e = fun i => Matrix.diagonal (fun j => eta MFormulas.etaH (VEd j * δ) i) := ⟨_, rfl⟩
    obtain ⟨b, hb⟩ : ∃ b, b = bodyM MFormulas.etaH (coeffH q (mkMSec c Q s).vs (s.max - s.min)) e (Matrix.diagonal VEd) δ := ⟨_, rfl⟩
    have ht : (calcFromVEd q eta (mkMSec c Q s) δ VEd true).t = conjM Q b.t := by
      rw [hb, he']
      simp only [calcFromVEd, if_true]
      rfl
    have k := fun l => key l MFormulas.etaH
    rw [← he'] at k
    have hc' := hc MFormulas.etaH
    rw [← congrFun he' 1] at hc'
    have pa := of_bodyH q (mkMSec c Q s).vs e (s.max - s.min) δ blkA (Matrix.diagonal VEd)
    have pb := of_bodyH q (mkMSec c Q s).vs e (s.max - s.min) δ blkB (Matrix.diagonal VEd)
    have pc := of_bodyH q (mkMSec c Q s).vs e (s.max - s.min) δ blkC (Matrix.diagonal VEd)
    have pd := of_bodyH q (mkMSec c Q s).vs e (s.max - s.min) δ blkD (Matrix.diagonal VEd)
    rw [← hb] at pa pb pc pd
    intro t e1
    have ht' : t = conjM Q b.t := ht
    refine ⟨?_, ?_, ?_, ?_⟩
    · rw [ht']
      exact (congrArg (fun x => Q * x * Q.transpose) (pa.trans (zero_add _))).trans (k _)
    · rw [ht']
      exact (congrArg (fun x => Q * x * Q.transpose) (pb.trans (zero_add _))).trans (k _)
    · rw [ht']
      refine (congrArg (fun x => Q * x * Q.transpose) pc).trans ?_
      rw [Matrix.mul_add, Matrix.add_mul]
      exact congrArg₂ (· + ·) hc' (k _)
    · rw [ht']
      exact (congrArg (fun x => Q * x * Q.transpose) (pd.trans (zero_add _))).trans (k _)
  | false =>
    obtain ⟨e, he'⟩ : ∃ e : ℕ → Mat n ℝ, e = fun i => Matrix.diagonal (fun j => eta MFormulas.etaDelta (VEd j * δ) i) := ⟨_, rfl⟩
    obtain ⟨b, hb⟩ : ∃ b, b = bodyM MFormulas.etaDelta (fun i => hornerM (coeffD q (mkMSec c Q s).vs (s.max - s.min) i) δ MFormulas.hmaxDelta) e (Matrix.diagonal VEd) δ := ⟨_, rfl⟩
    have ht : (calcFromVEd q eta (mkMSec c Q s) δ VEd false).t = conjM Q b.t := by
      rw [hb, he']
      simp only [calcFromVEd, if_false, Bool.false_eq_true]
      rfl
    have k := fun l => key l MFormulas.etaDelta
    rw [← he'] at k
    have hc' := hc MFormulas.etaDelta
    rw [← congrFun he' 1] at hc'
    have pa := of_bodyD q (mkMSec c Q s).vs e (s.max - s.min) δ blkA (Matrix.diagonal VEd)
    have pb := of_bodyD q (mkMSec c Q s).vs e (s.max - s.min) δ blkB (Matrix.diagonal VEd)
    have pc := of_bodyD q (mkMSec c Q s).vs e (s.max - s.min) δ blkC (Matrix.diagonal VEd)
    have pd := of_bodyD q (mkMSec c Q s).vs e (s.max - s.min) δ blkD (Matrix.diagonal VEd)
    rw [← hb] at pa pb pc pd
    intro t e1
    have ht' : t = conjM Q b.t := ht
    refine ⟨?_, ?_, ?_, ?_⟩
    · rw [ht']
      exact (congrArg (fun x => Q * x * Q.transpose) (pa.trans (zero_add _))).trans (k _)
    · rw [ht']
      exact (congrArg (fun x => Q * x * Q.transpose) (pb.trans (zero_add _))).trans (k _)
    · rw [ht']
      refine (congrArg (fun x => Q * x * Q.transpose) pc).trans ?_
      rw [Matrix.mul_add, Matrix.add_mul]
      exact congrArg₂ (· + ·) hc' (k _)
    · rw [ht']
      exact (congrArg (fun x => Q * x * Q.transpose) (pd.trans (zero_add _))).trans (k _)

/-! ### Setup of a sector -/

theorem orient_smooth {M : ℝ} {V : ℝ → Mat n ℝ} {s : Mesh.Sec ℝ} (hV : MSmoothOn M V s.min s.max) : MSmoothOn M (orientM V s) s.min s.max := by
  intro i j
  unfold orientM
  split
  · exact (hV i j).reflect
  · exact hV i j

theorem orient_coeff {τ : ℝ} {V : ℝ → Mat n ℝ} {c : ℕ → Mat n ℝ} {s : Mesh.Sec ℝ} (hc : MCoeffWithin τ V s.min s.max c) : MCoeffWithin τ (orientM V s) s.min s.max (origV c s) := by
  intro k hk i j
  have := hc k hk i j
  unfold orientM origV
  by_cases hd : s.dir = .backward
  · simp only [hd, if_true, true_and]
    rw [legendreCoeff_mirror (fun x => V x i j) s.min s.max (by omega : k < 16)]
    rcases Nat.mod_two_eq_zero_or_one k with h0 | h0
    · simp only [h0, zero_ne_one, if_false, one_smul, (Nat.even_iff.mpr h0).neg_one_pow, one_mul]
      exact this
    · simp only [h0, if_true, (Nat.odd_iff.mpr h0).neg_one_pow, Matrix.smul_apply, smul_eq_mul]
      rw [show -1 * c k i j * (s.max - s.min) ^ k - -1 * legendreCoeff (fun x => V x i j) s.min s.max k = -(c k i j * (s.max - s.min) ^ k - legendreCoeff (fun x => V x i j) s.min s.max k) by ring, abs_neg]
      exact this
  · simp only [hd, if_false, false_and, one_smul]
    exact this

/-- bound of `|Z_j|` -/
noncomputable def zB (n : ℕ) (M : ℝ) : ℝ := n * (n * (31 * M + 1)) * n + M

/-- bound of all ingredients -/
noncomputable def gB (n : ℕ) (M : ℝ) : ℝ := 1 + n * (31 * M + 1) + 496 * M * n + M + n * (Real.exp (zB n M) + 1) * n + n * (1 + 31 * M) + n * (3504 * M + 1)

theorem norm_one_le : ‖(1 : Mat n ℝ)‖ ≤ 1 := by
  rw [← Matrix.diagonal_one]
  exact norm_diag_le zero_le_one (fun _ => by simp)

theorem setup {M τ σ ρ : ℝ} (hM : 0 ≤ M) (hτ : 0 ≤ τ) (hτ1 : τ ≤ 1) (hσ1 : σ ≤ 1) (hρ : 0 ≤ ρ) {eta : ℕ → ℝ → ℕ → ℝ} (he : EtaWithin σ eta) {V : ℝ → Mat n ℝ} {c : ℕ → Mat n ℝ} {Q : Mat n ℝ}
    {s : Mesh.Sec ℝ} (hs : s.min < s.max) (h1 : s.max - s.min ≤ 1) (hV : MSmoothOn M V s.min s.max) (hc : MCoeffWithin τ V s.min s.max c) (hQ : Diagonalizes Q (c 0))
    {E : ℝ} (hE : |E| ≤ M) (q : MTerm → ℝ) :
    ∃ (w v : ℕ → Mat n ℝ) (Z : Fin n → ℝ), (∀ k < 9, v k = origV c s k) ∧ (∀ j, (mkMSec c Q s).vs 0 j j - E = Z j) ∧ w 9 = Q * Matrix.diagonal Z * Q.transpose ∧ w 9 = w 0 - E • 1 ∧
      (∀ x ∈ Set.Icc 0 (s.max - s.min), ‖orientM V s (s.min + x) - (w 0 + dVm w (s.max - s.min) x)‖ ≤ n * (3504 * M * (s.max - s.min) ^ 9 + τ)) ∧
      (∀ δ ∈ Set.Icc 0 (s.max - s.min), Bnd (gB n M) w (atd (etaM Q Z) δ) (s.max - s.min) δ) ∧
      ∀ δ ∈ Set.Icc 0 (s.max - s.min), ∀ useH, Near (etaN useH) (gB n M) ρ (n * tau M τ (s.max - s.min)) (n * σ * n) q v w (codeE eta Q Z (etaN useH) δ) (atd (etaM Q Z) δ) (s.max - s.min) δ := by
  obtain ⟨h, hh⟩ : ∃ h, h = s.max - s.min := ⟨_, rfl⟩
  have h0 : 0 < h := by rw [hh]; linarith
  have hn : (0 : ℝ) ≤ n := Nat.cast_nonneg _
  have hσ := he.nonneg
  obtain ⟨u, u0, ub0, ub, ud, uV⟩ := coeffs_near hs h1 (orient_smooth hV) (orient_coeff hc)
  rw [← hh] at ud uV h1
  have huo : u 0 = c 0 := by rw [u0, origV]; simp
  obtain ⟨w, hw⟩ : ∃ w : ℕ → Mat n ℝ, w = fun k => if k < 9 then u k else if k = 9 then c 0 - E • 1 else 0 := ⟨_, rfl⟩
  have w9 : w 9 = c 0 - E • 1 := by rw [hw]; simp
  have w0 : w 0 = c 0 := by rw [hw]; simp [huo]
  obtain ⟨Z, hZ⟩ : ∃ Z : Fin n → ℝ, Z = fun j => (Q.transpose * c 0 * Q) j j - E := ⟨_, rfl⟩
  have hQ' : Q * Q.transpose = 1 := mul_eq_one_comm.mp hQ.orth
  have hdz : (Matrix.diagonal Z : Mat n ℝ) = Q.transpose * c 0 * Q - E • 1 := by
    ext k l
    by_cases hkl : k = l
    · subst hkl; simp [hZ]
    · rw [Matrix.diagonal_apply_ne _ hkl, Matrix.sub_apply, hQ.diag hkl, Matrix.smul_apply, Matrix.one_apply_ne hkl, smul_zero, sub_zero]
  have wq : w 9 = Q * Matrix.diagonal Z * Q.transpose := by
    rw [hdz, Matrix.mul_sub, Matrix.sub_mul, Matrix.mul_smul, Matrix.smul_mul, Matrix.mul_one, hQ', w9]
    congr 1
    have : Q * (Q.transpose * c 0 * Q) * Q.transpose = (Q * Q.transpose) * c 0 * (Q * Q.transpose) := by simp only [Matrix.mul_assoc]
    rw [this, hQ', Matrix.one_mul, Matrix.mul_one]
  have c0n : ‖c 0‖ ≤ n * (31 * M + 1) := norm_le_entries (by positivity) (fun i j => by rw [← huo]; linarith [ub0 i j])
  have Zb : ∀ j, |Z j| ≤ zB n M := by
    intro j
    rw [hZ]
    have := entry_le (Y := Q.transpose * c 0 * Q) j j
    have := (norm_conj hQ.orth c0n).2
    have := abs_sub ((Q.transpose * c 0 * Q) j j) E
    unfold zB
    linarith
  -- bounds
  have hx : 0 < Real.exp (zB n M) := Real.exp_pos _
  have g1 : (0 : ℝ) ≤ n * (31 * M + 1) := by positivity
  have g2 : 0 ≤ 496 * M * n := by positivity
  have g3 : 0 ≤ n * (Real.exp (zB n M) + 1) * n := by positivity
  have g4 : 0 ≤ n * (1 + 31 * M) := by positivity
  have g5 : 0 ≤ n * (3504 * M + 1) := by positivity
  have B1 : 1 ≤ gB n M := by unfold gB; linarith
  have wb : ∀ k, ‖w k‖ ≤ n * (31 * M + 1) + 496 * M * n + M := by
    intro k
    rcases Nat.lt_or_ge k 9 with hk | hk
    · have e1 : w k = u k := by rw [hw]; simp [hk]
      rw [e1]
      rcases Nat.eq_zero_or_pos k with rfl | hk0
      · rw [huo]; linarith
      · have := norm_le_entries (by positivity) (ub k hk0)
        linarith
    · rcases Nat.eq_or_lt_of_le hk with rfl | hk'
      · rw [w9]
        refine (norm_sub_le _ _).trans ?_
        have e1 : ‖E • (1 : Mat n ℝ)‖ ≤ M := by
          rw [norm_smul, Real.norm_eq_abs]
          calc |E| * ‖(1 : Mat n ℝ)‖ ≤ M * 1 := mul_le_mul hE norm_one_le (norm_nonneg _) hM
            _ = M := mul_one _
        linarith
      · have e1 : w k = 0 := by rw [hw]; simp [show ¬ k < 9 by omega, show k ≠ 9 by omega]
        rw [e1, norm_zero]; linarith
  have eb : ∀ i δ, δ ∈ Set.Icc 0 h → ‖etaM Q Z i δ‖ ≤ n * Real.exp (zB n M) * n := by
    intro i δ hδ
    refine (norm_conj hQ.orth (norm_diag_le hx.le (fun j => ?_))).1
    refine (PL.abs_eta_le i _).trans (Real.exp_le_exp.mpr ?_)
    rw [abs_mul]
    have d1 : |δ ^ 2| ≤ 1 := by
      rw [abs_of_nonneg (sq_nonneg _)]; exact pow_le_one₀ hδ.1 (hδ.2.trans h1)
    calc |Z j| * |δ ^ 2| ≤ |Z j| * 1 := mul_le_mul_of_nonneg_left d1 (abs_nonneg _)
      _ ≤ zB n M := by rw [mul_one]; exact Zb j
  have ediff : ∀ R, 2 ≤ R → ∀ i < R, ∀ δ, ‖codeE eta Q Z R δ i - etaM Q Z i δ‖ ≤ n * σ * n := by
    intro R hR i hi δ
    have e1 : codeE eta Q Z R δ i - etaM Q Z i δ = Q * Matrix.diagonal (fun j => eta R (Z j * δ ^ 2) i - Eta.eta i (Z j * δ ^ 2)) * Q.transpose := by
      unfold codeE etaM
      rw [← Matrix.sub_mul, ← Matrix.mul_sub, ← Matrix.diagonal_sub]
    rw [e1]
    exact (norm_conj hQ.orth (norm_diag_le hσ (fun j => he R hR _ i hi))).1
  have hn1 : n * Real.exp (zB n M) * n + n * σ * n ≤ n * (Real.exp (zB n M) + 1) * n := by
    have : n * σ * n ≤ n * 1 * n := mul_le_mul_of_nonneg_right (mul_le_mul_of_nonneg_left hσ1 hn) hn
    nlinarith only [this]
  have t0 : 0 ≤ tau M τ h := tau_nonneg hM hτ h0.le
  have t1 : n * tau M τ h ≤ n * (1 + 31 * M) := by
    refine mul_le_mul_of_nonneg_left ?_ hn
    unfold tau
    have : 31 * M * h ^ 16 ≤ 31 * M * 1 := mul_le_mul_of_nonneg_left (pow_le_one₀ h0.le h1) (by positivity)
    linarith
  have hpow : ∀ k, h ^ k ≤ 1 := fun k => pow_le_one₀ h0.le h1
  have hwk : ∀ k, ‖w k‖ * h ^ k ≤ n * (31 * M + 1) + 496 * M * n + M := fun k => by
    calc ‖w k‖ * h ^ k ≤ (n * (31 * M + 1) + 496 * M * n + M) * 1 := mul_le_mul (wb k) (hpow k) (by positivity) (by linarith)
      _ = _ := mul_one _
  obtain ⟨v, hv⟩ : ∃ v : ℕ → Mat n ℝ, v = fun k => if k < 9 then origV c s k else w k := ⟨_, rfl⟩
  have vd : ∀ k, ‖v k - w k‖ * h ^ k ≤ n * tau M τ h := by
    intro k
    by_cases hk : k < 9
    · have e1 : v k - w k = origV c s k - u k := by rw [hv, hw]; simp [hk]
      have e2 : ‖h ^ k • (v k - w k)‖ ≤ n * tau M τ h := by
        refine norm_le_entries t0 (fun i j => ?_)
        rw [e1, Matrix.smul_apply, smul_eq_mul, abs_mul, abs_of_nonneg (by positivity : 0 ≤ h ^ k), mul_comm]
        exact ud k hk i j
      rwa [norm_smul, Real.norm_eq_abs, abs_of_nonneg (by positivity : 0 ≤ h ^ k), mul_comm] at e2
    · have e1 : v k - w k = 0 := by rw [hv]; simp [hk]
      rw [e1, norm_zero, zero_mul]; positivity
  have bnd : ∀ δ ∈ Set.Icc 0 h, Bnd (gB n M) w (atd (etaM Q Z) δ) h δ := fun δ hδ =>
    ⟨B1, norm_one_le.trans B1, h0.le, h1, hδ.1, hδ.2, fun k => (wb k).trans (by unfold gB; linarith), fun i => (eb i δ hδ).trans (by unfold gB; nlinarith only [hn1, g1, g2, g4, g5, hM, mul_nonneg (mul_nonneg hn hσ) hn])⟩
  rw [← hh]
  refine ⟨w, v, Z, fun k hk => by rw [hv]; simp [hk], fun j => ?_, wq, by rw [w9, w0], fun x hx => ?_, bnd, fun δ hδ useH => ?_⟩
  · rw [hZ]; show (if s.dir = .backward ∧ 0 % 2 = 1 then (-1 : ℝ) else 1) • (Q.transpose * c 0 * Q) j j - E = _
    simp
  · refine norm_le_entries (by positivity) (fun i j => ?_)
    have e1 : w 0 + dVm w h x = u 0 + dVm u h x := by
      rw [w0, huo]
      congr 1
      unfold dVm
      refine Finset.sum_congr rfl (fun k hk => ?_)
      rw [Finset.mem_range] at hk
      rw [hw]; simp [show k + 1 < 9 by omega]
    rw [e1]
    exact uV x hx i j
  · have b := bnd δ hδ
    have hR : 2 ≤ etaN useH := by cases useH <;> decide
    refine ⟨B1, b.one, h0.le, h1, hδ.1, hδ.2, fun k => ?_, fun k => (hwk k).trans (by unfold gB; linarith), vd, b.e, fun i hi => ?_, fun i hi => ediff _ hR i hi δ, hρ⟩
    · have e1 : ‖v k‖ ≤ ‖v k - w k‖ + ‖w k‖ := by simpa using norm_add_le (v k - w k) (w k)
      have e2 := mul_le_mul_of_nonneg_right e1 (pow_nonneg h0.le k)
      rw [add_mul] at e2
      have := vd k; have := hwk k
      unfold gB; linarith
    · have e1 : ‖codeE eta Q Z (etaN useH) δ i‖ ≤ ‖codeE eta Q Z (etaN useH) δ i - etaM Q Z i δ‖ + ‖etaM Q Z i δ‖ := by
        simpa using norm_add_le (codeE eta Q Z (etaN useH) δ i - etaM Q Z i δ) (etaM Q Z i δ)
      have := ediff _ hR i hi δ; have := eb i δ hδ
      unfold gB; linarith

/-! ### The sector theorem -/

theorem start_near {B : ℝ} {v : ℕ → Mat n ℝ} {e : ℕ → ℝ → Mat n ℝ} (he : EtaFam v e) (e0 : e 0 0 = 1) {h : ℝ}
    (b : ∀ δ ∈ Set.Icc 0 h, Bnd B v (atd e δ) h δ) {δ : ℝ} (hδ : δ ∈ Set.Icc 0 h) {ta tb tc td : NP} (T : Tab ta tb tc td) {sc : ℝ}
    (hsc : sc = cB B (ta.flatMap dmono) + cB B (tb.flatMap dmono) + cB B (tc.flatMap dmono) + cB B (td.flatMap dmono)) :
    ‖iv ta v e h δ - 1‖ ≤ sc * h ∧ ‖iv tb v e h δ‖ ≤ sc * h ∧ ‖iv tc v e h δ‖ ≤ sc * h ∧ ‖iv td v e h δ - 1‖ ≤ sc * h := by
  have h0 : 0 ≤ h := hδ.1.trans hδ.2
  have hB : 0 ≤ B := by linarith [(b δ hδ).B1]
  have ka := iv_near_start T.da he b hδ
  have kb := iv_near_start T.db he b hδ
  have kc := iv_near_start T.dc he b hδ
  have kd := iv_near_start T.dd he b hδ
  rw [iv_zero_one T.za e0] at ka
  rw [iv_zero_zero T.zb, sub_zero] at kb
  rw [iv_zero_zero T.zc, sub_zero] at kc
  rw [iv_zero_one T.zd e0] at kd
  have pa := mul_nonneg (cB_nonneg hB (ta.flatMap dmono)) h0
  have pb := mul_nonneg (cB_nonneg hB (tb.flatMap dmono)) h0
  have pc := mul_nonneg (cB_nonneg hB (tc.flatMap dmono)) h0
  have pd := mul_nonneg (cB_nonneg hB (td.flatMap dmono)) h0
  rw [hsc]
  simp only [add_mul]
  refine ⟨by linarith, by linarith, by linarith, by linarith⟩

/-- the constant of a sector -/
noncomputable def secC (n : ℕ) (M : ℝ) : ℝ :=
  1 + 6 * (bC (gB n M) * (1 + n + 31 * n * M + n * n)) + 2 * sC (gB n M) + rCof Ua Ub Uc Ud (gB n M) * (1 + 3504 * n * M + n) * Real.exp (10 * gB n M + 2)

theorem shift_solution {V : ℝ → Mat n ℝ} {E a b : ℝ} {y dy : ℝ → Matrix (Fin n) (Fin r) ℝ} (hy : MSolvesOn V E a b y dy) :
    (∀ x ∈ Set.Icc 0 (b - a), HasDerivWithinAt (fun x => y (a + x)) (dy (a + x)) (Set.Icc 0 (b - a)) x) ∧
    (∀ x ∈ Set.Icc 0 (b - a), HasDerivWithinAt (fun x => dy (a + x)) ((V (a + x) - E • (1 : Mat n ℝ)) * y (a + x)) (Set.Icc 0 (b - a)) x) := by
  have hm : Set.MapsTo (fun x => a + x) (Set.Icc 0 (b - a)) (Set.Icc a b) := fun x hx => ⟨by linarith [hx.1], by linarith [hx.2]⟩
  have hd : ∀ x, HasDerivWithinAt (fun x => a + x) 1 (Set.Icc 0 (b - a)) x := fun x => ((hasDerivAt_id x).const_add a).hasDerivWithinAt
  constructor
  · intro x hx
    refine matrix_deriv (fun i j => ?_)
    simpa [Function.comp_def] using (hy.d1 _ (hm hx) i j).comp x (hd x) hm
  · intro x hx
    refine matrix_deriv (fun i j => ?_)
    simpa [Function.comp_def] using (hy.d2 _ (hm hx) i j).comp x (hd x) hm

set_option maxHeartbeats 800000 in
theorem sector_near {M τ σ ρ : ℝ} (hM : 0 ≤ M) (hτ : 0 ≤ τ) (hτ1 : τ ≤ 1) (hσ1 : σ ≤ 1) (hρ1 : ρ ≤ 1) {q : MTerm → ℝ} (hq : LitWithin ρ q) {eta : ℕ → ℝ → ℕ → ℝ} (he : EtaWithin σ eta)
    {V : ℝ → Mat n ℝ} {c : ℕ → Mat n ℝ} {Q : Mat n ℝ}
    {s : Mesh.Sec ℝ} (hs : s.min < s.max) (h1 : s.max - s.min ≤ 1) (hV : MSmoothOn M V s.min s.max) (hc : MCoeffWithin τ V s.min s.max c) (hQ : Diagonalizes Q (c 0))
    {E : ℝ} (hE : |E| ≤ M) {δ : ℝ} (hδ : δ ∈ Set.Icc 0 (s.max - s.min)) {useH : Bool} (hu : useH = true → δ = s.max - s.min) :
    ‖(tnOf (calcFromVEd q eta (mkMSec c Q s) δ (vedOf (mkMSec c Q s) E δ) useH)).t - 1‖ ≤ secC n M * (s.max - s.min + σ) ∧
    ∀ (r : ℕ) (y dy : ℝ → Matrix (Fin n) (Fin r) ℝ) (S : ℝ), MSolvesOn (orientM V s) E s.min s.max y dy → ‖y s.min‖ ≤ S → ‖dy s.min‖ ≤ S →
      ‖(tnOf (calcFromVEd q eta (mkMSec c Q s) δ (vedOf (mkMSec c Q s) E δ) useH)).t * Matrix.fromRows (y s.min) (dy s.min) - Matrix.fromRows (y (s.min + δ)) (dy (s.min + δ))‖ ≤
        secC n M * ((s.max - s.min) ^ ordM useH + (s.max - s.min) * (ρ + τ) + σ) * S := by
  obtain ⟨w, v, Z, hv, hZ, wq, w9, hWn, hb, hN⟩ := setup hM hτ hτ1 hσ1 hq.1 he hs h1 hV hc hQ hE q
  have hved : ∀ j, vedOf (mkMSec c Q s) E δ j = Z j * δ := fun j => by rw [← hZ j]; rfl
  have cb := calc_blocks hQ.orth q eta c s hved useH
  obtain ⟨t, ht⟩ : ∃ t, t = (calcFromVEd q eta (mkMSec c Q s) δ (vedOf (mkMSec c Q s) E δ) useH).t := ⟨_, rfl⟩
  rw [← ht] at cb
  have htn : (tnOf (calcFromVEd q eta (mkMSec c Q s) δ (vedOf (mkMSec c Q s) E δ) useH)).t = Matrix.fromBlocks t.a t.b t.c t.d := by rw [ht]; rfl
  rw [htn]
  have hcong : ∀ sel, IsBlock sel → evc q (origV c s) (codeE eta Q Z (etaN useH) δ) (s.max - s.min) δ (lst useH sel) = evc q v (codeE eta Q Z (etaN useH) δ) (s.max - s.min) δ (lst useH sel) := by
    intro sel hsel
    refine evc_congr (fun k hk => (hv k hk).symm) _ (fun f hf => ?_)
    cases useH with
    | true => exact inTables_H hsel hf
    | false => exact inTables_D hsel hf
  have nb := blocks_near hq hu (hN δ hδ useH) (hb δ hδ) (mul_nonneg (mul_nonneg (Nat.cast_nonneg n) he.nonneg) (Nat.cast_nonneg n))
  obtain ⟨ca, cbb, cc, cd⟩ := cb
  rw [hcong _ (.inl rfl)] at ca
  rw [hcong _ (.inr (.inl rfl))] at cbb
  rw [hcong _ (.inr (.inr (.inl rfl))), ← wq] at cc
  rw [hcong _ (.inr (.inr (.inr rfl)))] at cd
  rw [← ca, ← cbb, ← cc, ← cd] at nb
  clear ca cbb cc cd hcong
  obtain ⟨h, hh⟩ : ∃ h, h = s.max - s.min := ⟨_, rfl⟩
  rw [← hh] at h1 hδ hWn hb nb ⊢
  have h0 : 0 < h := by rw [hh]; linarith
  have hn : (0 : ℝ) ≤ n := Nat.cast_nonneg _
  have hσ := he.nonneg
  have hfam : EtaFam w (etaM Q Z) := etaFam hQ.orth wq
  have e0 := etaM_zero hQ.orth Z
  have B0 : 0 ≤ gB n M := by linarith [(hb δ hδ).B1]
  obtain ⟨X, hX⟩ : ∃ X, X = h ^ ordM useH + h * (ρ + τ) + σ := ⟨_, rfl⟩
  have p0 : 0 ≤ h ^ ordM useH := by positivity
  have p1 : 0 ≤ h * (ρ + τ) := mul_nonneg h0.le (add_nonneg hq.1 hτ)
  have hX0 : 0 ≤ X := by rw [hX]; linarith
  have q1 : h ^ 17 ≤ h ^ ordM useH := pow_le_pow_of_le_one h0.le h1 (by cases useH <;> decide)
  have q2 : h ^ 10 ≤ h ^ ordM useH := pow_le_pow_of_le_one h0.le h1 (by cases useH <;> decide)
  have q3 : h ^ ordM useH ≤ h := by simpa using pow_le_pow_of_le_one h0.le h1 (show 1 ≤ ordM useH by cases useH <;> decide)
  have hX1 : h ^ ordM useH + h * (ρ + n * tau M τ h) + n * σ * n ≤ (1 + n + 31 * n * M + n * n) * X := by
    have a1 : h * (ρ + n * tau M τ h) = h * ρ + n * (h * τ) + 31 * n * M * h ^ 17 := by unfold tau; ring
    have a2 : h * ρ ≤ X := by rw [hX]; have := mul_nonneg h0.le hτ; linarith
    have a3 : h * τ ≤ X := by rw [hX]; have := mul_nonneg h0.le hq.1; linarith
    have a4 : h ^ 17 ≤ X := by rw [hX]; linarith
    have a5 : σ ≤ X := by rw [hX]; linarith
    have a6 : h ^ ordM useH + h * ρ ≤ X := by rw [hX]; have := mul_nonneg h0.le hτ; linarith
    have b1 := mul_le_mul_of_nonneg_left a3 hn
    have b2 := mul_le_mul_of_nonneg_left a4 (show 0 ≤ 31 * n * M by positivity)
    have b3 := mul_le_mul_of_nonneg_left a5 (show (0 : ℝ) ≤ n * n by positivity)
    rw [a1]
    linarith
  have k0 : (0 : ℝ) ≤ 1 + n + 31 * n * M + n * n := by positivity
  have bC0 : 0 ≤ bC (gB n M) := by
    unfold bC
    have := bX_nonneg MEntry4.a extA Ua B0
    have := bX_nonneg MEntry4.b extB Ub B0
    have := bX_nonneg MEntry4.c extC (tD MEntry4.c ++ extC) B0
    have := bX_nonneg MEntry4.d extD Ud B0
    linarith
  obtain ⟨G, hG⟩ : ∃ G, G = bC (gB n M) * (1 + n + 31 * n * M + n * n) := ⟨_, rfl⟩
  have G0 : 0 ≤ G := by rw [hG]; positivity
  have hXG : bC (gB n M) * (h ^ ordM useH + h * (ρ + n * tau M τ h) + n * σ * n) ≤ G * X := by
    rw [hG]; exact (mul_le_mul_of_nonneg_left hX1 bC0).trans (le_of_eq (mul_assoc _ _ _).symm)
  obtain ⟨na, nbb, nc, nd⟩ := nb
  replace na := na.trans hXG
  replace nbb := nbb.trans hXG
  replace nc := nc.trans hXG
  replace nd := nd.trans hXG
  obtain ⟨sc, hsc⟩ : ∃ sc, sc = sC (gB n M) := ⟨_, rfl⟩
  obtain ⟨sa, sb, scc, sd⟩ := start_near hfam e0 hb hδ tab_U (sc := sc) hsc
  have sc0 : 0 ≤ sc := by
    have := (norm_nonneg _).trans sb
    by_contra hneg
    push Not at hneg
    have := mul_neg_of_neg_of_pos hneg h0
    linarith
  obtain ⟨R, hR⟩ : ∃ R, R = rCof Ua Ub Uc Ud (gB n M) := ⟨_, rfl⟩
  have R0 : 0 ≤ R := by
    rw [hR]
    obtain ⟨r1, r2, r3, r4, r5, r6⟩ := rC_parts Ua Ub Uc Ud B0
    unfold rCof; linarith
  obtain ⟨x, hx⟩ : ∃ x, x = Real.exp (10 * gB n M + 2) := ⟨_, rfl⟩
  have x0 : 0 ≤ x := by rw [hx]; exact (Real.exp_pos _).le
  have hC : secC n M = 1 + 6 * G + 2 * sc + R * (1 + 3504 * n * M + n) * x := by rw [secC, ← hG, ← hsc, ← hR, ← hx]
  have RX0 : 0 ≤ R * (1 + 3504 * n * M + n) * x := by positivity
  constructor
  · have hX3 : X ≤ 3 * (h + σ) := by
      rw [hX]
      have : h * (ρ + τ) ≤ h * 2 := mul_le_mul_of_nonneg_left (by linarith) h0.le
      linarith
    have m1 : G * X ≤ 3 * G * (h + σ) := by
      have := mul_le_mul_of_nonneg_left hX3 G0; linarith
    have m2 : sc * h ≤ sc * (h + σ) := mul_le_mul_of_nonneg_left (by linarith) sc0
    have tot : (G * X + sc * h) + (G * X + sc * h) ≤ secC n M * (h + σ) := by
      rw [hC]
      have := mul_nonneg RX0 (show 0 ≤ h + σ by linarith)
      linarith
    have fa : ‖t.a - 1‖ ≤ G * X + sc * h := by
      have := norm_add_le_of_le na sa
      rwa [sub_add_sub_cancel] at this
    have fb : ‖t.b‖ ≤ G * X + sc * h := by
      have := norm_add_le_of_le nbb sb
      rwa [sub_add_cancel] at this
    have fc : ‖t.c‖ ≤ G * X + sc * h := by
      have := norm_add_le_of_le nc scc
      rwa [sub_add_cancel] at this
    have fd : ‖t.d - 1‖ ≤ G * X + sc * h := by
      have := norm_add_le_of_le nd sd
      rwa [sub_add_sub_cancel] at this
    have e1 : Matrix.fromBlocks t.a t.b t.c t.d - 1 = Matrix.fromBlocks (t.a - 1) t.b t.c (t.d - 1) := by
      rw [← Matrix.fromBlocks_one, sub_eq_add_neg, Matrix.fromBlocks_neg, Matrix.fromBlocks_add]
      simp [sub_eq_add_neg]
    rw [e1]
    exact norm_fromBlocks_le ((add_le_add fa fb).trans tot) ((add_le_add fc fd).trans tot)
  · intro r y dy S hy s1 s2
    have hS : 0 ≤ S := (norm_nonneg _).trans s1
    obtain ⟨d1, d2⟩ := shift_solution hy
    rw [← hh] at d1 d2
    have k := ideal_step_of tab_U (κ := n * (3504 * M * h ^ 9 + τ)) hfam h0 w9 hb e0 hWn (by
      have z1 : 3504 * M * h ^ 9 + τ ≤ 3504 * M + 1 := by
        have : 3504 * M * h ^ 9 ≤ 3504 * M * 1 := mul_le_mul_of_nonneg_left (pow_le_one₀ h0.le h1) (by positivity)
        linarith
      have z2 := mul_le_mul_of_nonneg_left z1 hn
      have z3 : 0 ≤ n * (31 * M + 1) + 496 * M * n + M + n * (Real.exp (zB n M) + 1) * n + n * (1 + 31 * M) := by positivity
      unfold gB; linarith) d1 d2 (by simpa using s1) (by simpa using s2) hδ
    simp only [add_zero] at k
    rw [← hR, ← hx] at k
    have fin : R * (h ^ 9 + n * (3504 * M * h ^ 9 + τ)) * S * h * x ≤ R * (1 + 3504 * n * M + n) * x * X * S := by
      have z1 : (h ^ 9 + n * (3504 * M * h ^ 9 + τ)) * h ≤ (1 + 3504 * n * M + n) * X := by
        have a1 : h ^ 10 ≤ X := by rw [hX]; linarith
        have a2 : h * τ ≤ X := by rw [hX]; have := mul_nonneg h0.le hq.1; linarith
        have b1 := mul_le_mul_of_nonneg_left a1 (show 0 ≤ 1 + 3504 * n * M by positivity)
        have b2 := mul_le_mul_of_nonneg_left a2 hn
        nlinarith only [b1, b2]
      calc R * (h ^ 9 + n * (3504 * M * h ^ 9 + τ)) * S * h * x = R * x * S * ((h ^ 9 + n * (3504 * M * h ^ 9 + τ)) * h) := by ring
        _ ≤ R * x * S * ((1 + 3504 * n * M + n) * X) := mul_le_mul_of_nonneg_left z1 (by positivity)
        _ = _ := by ring
    have tot : G * X * S + G * X * S + R * (h ^ 9 + n * (3504 * M * h ^ 9 + τ)) * S * h * x ≤ secC n M * X * S := by
      have : 0 ≤ (1 + 4 * G + 2 * sc) * X * S := by positivity
      rw [hC]
      linarith
    have bl : ∀ (A B i1 i2 : Mat n ℝ) (z : Matrix (Fin n) (Fin r) ℝ), ‖A - i1‖ ≤ G * X → ‖B - i2‖ ≤ G * X →
        ‖i1 * y s.min + i2 * dy s.min - z‖ ≤ R * (h ^ 9 + n * (3504 * M * h ^ 9 + τ)) * S * h * x → ‖A * y s.min + B * dy s.min - z‖ ≤ secC n M * X * S := by
      intro A B i1 i2 z g1 g2 g3
      have e1 : A * y s.min + B * dy s.min - z = ((A - i1) * y s.min + (B - i2) * dy s.min) + (i1 * y s.min + i2 * dy s.min - z) := by
        rw [Matrix.sub_mul, Matrix.sub_mul]; abel
      rw [e1]
      refine le_trans (norm_add_le_of_le (norm_add_le_of_le ?_ ?_) g3) tot
      · exact (Matrix.linfty_opNorm_mul _ _).trans (mul_le_mul g1 s1 (norm_nonneg _) (mul_nonneg G0 hX0))
      · exact (Matrix.linfty_opNorm_mul _ _).trans (mul_le_mul g2 s2 (norm_nonneg _) (mul_nonneg G0 hX0))
    rw [Matrix.fromBlocks_mul_fromRows]
    have e2 : ∀ a b c d : Matrix (Fin n) (Fin r) ℝ, Matrix.fromRows a b - Matrix.fromRows c d = Matrix.fromRows (a - c) (b - d) := by
      intro a b c d; ext i j; cases i <;> simp
    rw [e2, ← hX]
    exact norm_fromRows_le (bl _ _ _ _ _ na nbb k.1) (bl _ _ _ _ _ nc nd k.2)

end
end Verif.NP
