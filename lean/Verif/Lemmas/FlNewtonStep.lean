import Verif.Lemmas.FlNewton
import Verif.Props.EnergyConverge

/-!
# One Newton step in finite precision
-/
namespace Verif.Fp
open Verif.Mesh Verif.YT Verif.CalcT Verif.Propag Verif.Solver Verif.Spec Verif.Legendre

theorem fl_round {fl : ℝ → ℝ} {u mu x B : ℝ} (hr : Rounding u mu fl) (hu : 0 ≤ u) (hx : |x| ≤ B) (hm : mu ≤ B) : |fl x - x| ≤ u * B :=
  (hr.err x).trans (mul_le_mul_of_nonneg_left (max_le hx hm) hu)

/-- the quotient of computed numbers, and the rounded step -/
theorem newton_round {fl : ℝ → ℝ} {u mu E lam N K C1 κ x eF dF eR dR M : ℝ} (hr : Rounding u mu fl) (hu : 0 ≤ u) (huκ : u ≤ κ) (hmu : mu ≤ 1) (hN : 0 < N) (hK : 1 ≤ K) (hC1 : 1 ≤ C1) (hM : 1 ≤ M)
    (hE : |E| ≤ M) (x0 : |E - lam| = x) (x1 : x ≤ 1) (hd : N ≤ C1 * |dR|) (hs : |E - eR / dR - lam| ≤ C1 * (x ^ 2 + κ)) (h1 : |eF - eR| ≤ K * κ * N) (h2 : |dF - dR| ≤ K * κ * N)
    (hκ : 2 * C1 * (K * κ) ≤ 1) :
    N ≤ 2 * C1 * |dF| ∧ |fl (E - fl (eF / dF)) - lam| ≤ (C1 + 2 * C1 * K * (2 + 2 * C1) + 2 * (M + 6 + 16 * C1)) * (x ^ 2 + κ) ∧
      |E - fl (eF / dF) - lam| ≤ (C1 + 2 * C1 * K * (2 + 2 * C1) + 2 * (M + 6 + 16 * C1)) * (x ^ 2 + κ) := by
  have κ0 : 0 ≤ κ := hu.trans huκ
  have C0 : 0 < C1 := by linarith
  have K0 : 0 < K := by linarith
  have xx : 0 ≤ x := by rw [← x0]; exact abs_nonneg _
  have κ1 : κ ≤ 1 := by
    have : κ ≤ 2 * C1 * (K * κ) := by
      have : 1 ≤ 2 * C1 * K := by nlinarith
      calc κ = 1 * κ := (one_mul _).symm
        _ ≤ 2 * C1 * K * κ := mul_le_mul_of_nonneg_right this κ0
        _ = _ := by ring
    linarith
  have dF1 : N ≤ 2 * C1 * |dF| := by
    have a1 : |dR| ≤ |dF| + K * κ * N := by
      have : dR = dF - (dF - dR) := by ring
      rw [this]; exact (abs_sub _ _).trans (by linarith)
    have a2 : C1 * |dR| ≤ C1 * |dF| + C1 * (K * κ * N) := by
      have := mul_le_mul_of_nonneg_left a1 C0.le
      linarith
    have a3 : C1 * (K * κ * N) ≤ N / 2 := by
      have := mul_le_mul_of_nonneg_right hκ hN.le
      linarith only [this, (by ring : 2 * C1 * (K * κ) * N = 2 * (C1 * (K * κ * N)))]
    linarith
  refine ⟨dF1, ?_⟩
  have dFp : 0 < |dF| := by
    by_contra h
    have : |dF| = 0 := le_antisymm (not_lt.mp h) (abs_nonneg _)
    rw [this, mul_zero] at dF1; linarith
  have dF0 : dF ≠ 0 := abs_pos.mp dFp
  have dRp : 0 < |dR| := by
    by_contra h
    have : |dR| = 0 := le_antisymm (not_lt.mp h) (abs_nonneg _)
    rw [this, mul_zero] at hd; linarith
  have dR0 : dR ≠ 0 := abs_pos.mp dRp
  obtain ⟨q, hq⟩ : ∃ q, q = eR / dR := ⟨_, rfl⟩
  have eRq : eR = q * dR := by rw [hq]; field_simp
  rw [← hq] at hs
  have x2 : x ^ 2 ≤ 1 := by nlinarith
  have qb : |q| ≤ 1 + 2 * C1 := by
    have : q = (E - lam) - (E - q - lam) := by ring
    rw [this]
    have h := abs_sub (E - lam) (E - q - lam)
    have : C1 * (x ^ 2 + κ) ≤ C1 * 2 := mul_le_mul_of_nonneg_left (by linarith) C0.le
    linarith
  have dq : |eF / dF - q| ≤ 2 * C1 * K * (2 + 2 * C1) * κ := by
    have e : eF / dF - q = ((eF - eR) - q * (dF - dR)) / dF := by rw [eRq]; field_simp; ring
    rw [e, abs_div, div_le_iff₀ dFp]
    have h := abs_sub (eF - eR) (q * (dF - dR))
    rw [abs_mul] at h
    have h3 : |q| * |dF - dR| ≤ (1 + 2 * C1) * (K * κ * N) := mul_le_mul qb h2 (abs_nonneg _) (by linarith)
    have h4 : K * κ * (2 + 2 * C1) * N ≤ K * κ * (2 + 2 * C1) * (2 * C1 * |dF|) := mul_le_mul_of_nonneg_left dF1 (by positivity)
    linarith only [h, h1, h3, h4, (by ring : K * κ * (2 + 2 * C1) * N = K * κ * N + (1 + 2 * C1) * (K * κ * N)), (by ring : 2 * C1 * K * (2 + 2 * C1) * κ * |dF| = K * κ * (2 + 2 * C1) * (2 * C1 * |dF|))]
  have dqb : 2 * C1 * K * (2 + 2 * C1) * κ ≤ 2 + 2 * C1 := by
    have := mul_le_mul_of_nonneg_right hκ (show 0 ≤ 2 + 2 * C1 by linarith)
    linarith only [this, (by ring : 2 * C1 * K * (2 + 2 * C1) * κ = 2 * C1 * (K * κ) * (2 + 2 * C1))]
  obtain ⟨p, hp⟩ : ∃ p, p = eF / dF := ⟨_, rfl⟩
  rw [← hp] at dq ⊢
  have pb : |p| ≤ 3 + 4 * C1 := by
    have : p = (p - q) + q := by ring
    rw [this]; exact (abs_add_le _ _).trans (by linarith)
  have r1 := fl_round hr hu pb (by linarith)
  have u1 : u ≤ 1 := by linarith
  have r1b : |fl p - p| ≤ 3 + 4 * C1 := r1.trans (mul_le_of_le_one_left (by linarith) u1)
  have fp : |fl p| ≤ 6 + 8 * C1 := by
    have : fl p = (fl p - p) + p := by ring
    rw [this]; exact (abs_add_le _ _).trans (by linarith)
  have Eb : |E - fl p| ≤ M + 6 + 8 * C1 := (abs_sub _ _).trans (by linarith)
  have r2 := fl_round hr hu Eb (by linarith)
  have t1 := abs_add_le ((fl (E - fl p) - (E - fl p)) - (fl p - p) - (p - q)) (E - q - lam)
  have t2 := abs_sub ((fl (E - fl p) - (E - fl p)) - (fl p - p)) (p - q)
  have t3 := abs_sub (fl (E - fl p) - (E - fl p)) (fl p - p)
  have uM : u * (M + 6 + 8 * C1) ≤ κ * (M + 6 + 8 * C1) := mul_le_mul_of_nonneg_right huκ (by linarith)
  have uC : u * (3 + 4 * C1) ≤ κ * (3 + 4 * C1) := mul_le_mul_of_nonneg_right huκ (by linarith)
  have b1 : 0 ≤ (2 * C1 * K * (2 + 2 * C1) + 2 * (M + 6 + 16 * C1)) * x ^ 2 := by positivity
  have b2 : 0 ≤ κ * (3 + 20 * C1 + M) := by positivity
  have b3 : (C1 + 2 * C1 * K * (2 + 2 * C1) + 2 * (M + 6 + 16 * C1)) * (x ^ 2 + κ) =
    C1 * (x ^ 2 + κ) + 2 * C1 * K * (2 + 2 * C1) * κ + κ * (M + 6 + 8 * C1) + κ * (3 + 4 * C1) + κ * (3 + 20 * C1 + M) + (2 * C1 * K * (2 + 2 * C1) + 2 * (M + 6 + 16 * C1)) * x ^ 2 := by ring
  rw [b3]
  refine ⟨?_, ?_⟩
  · have e : fl (E - fl p) - lam = (fl (E - fl p) - (E - fl p)) - (fl p - p) - (p - q) + (E - q - lam) := by ring
    rw [e]
    linarith only [t1, t2, t3, uM, uC, b1, b2, r1, r2, dq, hs]
  · have e : E - fl p - lam = (E - q - lam) - (p - q) - (fl p - p) := by ring
    rw [e]
    have s1 := abs_sub ((E - q - lam) - (p - q)) (fl p - p)
    have s2 := abs_sub (E - q - lam) (p - q)
    have s3 : 0 ≤ κ * (M + 6 + 8 * C1) := by positivity
    linarith only [s1, s2, s3, uM, uC, b1, b2, r1, r2, dq, hs]

set_option maxHeartbeats 1600000 in
/-- **One Newton step in finite precision.** -/
theorem newton_fl (M : ℝ) (hM : 1 ≤ M) : ∃ C : ℝ, 1 ≤ C ∧ ∀ (fl : ℝ → ℝ) (H u mu σ τ ε : ℝ) (W : Sec ℝ → ℝ → ℝ) (dmin dmax eps : Fl fl) (r : BuildResult (Fl fl))
    (eta : ℕ → Fl fl → ℕ → Fl fl) (vs : Sec (Fl fl) → ℕ → Fl fl) (th : Fl fl → Fl fl → Fl fl → Y (Fl fl) → Fl fl) (pru : Fl fl → Fl fl → Fl fl → Fl fl → Y (Fl fl) → Y (Fl fl) → Fl fl)
    (pi E : Fl fl) (useH : Bool) (left right : Y (Fl fl)) (sL sR lam : ℝ),
    FlFit M H u mu σ τ (6 * M * H) W dmin dmax eps r.sectors eta vs → 0 ≤ σ → τ + r.sectors.length * (u + σ) ≤ ε → dmax.val - dmin.val ≤ M → 1 / M ≤ dmax.val - dmin.val → |E.val| ≤ M → |lam| ≤ M →
    r.matchIndex < r.sectors.length → sL = sz (pr (valY left)) → sR = sz (pr (valY right)) → 0 < sL → 0 < sR → pe (valY left) = 0 → pe (valY right) = 0 → mu ≤ sL → mu ≤ sR → mu ≤ sL * sR →
    IsEigenvalue W (realMesh r.sectors) dmin.val dmax.val (pr (valY left)) (pr (valY right)) lam →
    C * (H ^ ord useH + ε) ≤ 1 → |E.val - lam| ≤ 1 / C →
    ∃ err, (constructGen eps eta th pru vs dmin dmax r).matchingError pi E left right useH = .ok err ∧
      sL * sR ≤ C * |err.2.1.val| ∧ |(E - err.1 / err.2.1).val - lam| ≤ C * ((E.val - lam) ^ 2 + (H ^ ord useH + ε)) ∧
      |E.val - (err.1 / err.2.1).val - lam| ≤ C * ((E.val - lam) ^ 2 + (H ^ ord useH + ε)) := by
  obtain ⟨C1, hC1, step⟩ := newton_step M hM
  obtain ⟨C2, hC2, near⟩ := matching_near M hM
  obtain ⟨C3, hC3, der⟩ := C97_matching_derivative M hM
  obtain ⟨C4, hC4, flk⟩ := matching_dfl M hM
  obtain ⟨K, hK⟩ : ∃ K, K = C2 + C3 + C4 := ⟨_, rfl⟩
  have K1 : 1 ≤ K := by linarith
  obtain ⟨D, hD⟩ : ∃ D, D = C1 + 2 * C1 * K * (2 + 2 * C1) + 2 * (M + 6 + 16 * C1) := ⟨_, rfl⟩
  have CK : 0 ≤ C1 * K := by positivity
  have CCK : 0 ≤ C1 * K * C1 := by positivity
  have D8 : 8 ≤ D := by rw [hD]; nlinarith
  have DC : 2 * C1 ≤ D := by rw [hD]; nlinarith
  have DK : 2 * C1 * K ≤ D := by rw [hD]; nlinarith
  refine ⟨D, by linarith, ?_⟩
  intro fl H u mu σ τ ε W dmin dmax eps r eta vs th pru pi E useH left right sL sR lam hF hσ0 hε hd hd' hE hlam hm eSL eSR pL pR pe1 pe2 muL muR muLR heig hκ1 hEl
  have hf := hF.fit
  have hH0 := fit_pos hf
  have hHp : 0 ≤ H ^ ord useH := by positivity
  have hsm : r.sectors[r.matchIndex] ∈ r.sectors := List.getElem_mem hm
  have hu0 := hF.u0
  have hτ0 : 0 ≤ τ := (hF.coeff _ hsm).nonneg
  have hN1 : (1 : ℝ) ≤ r.sectors.length := by exact_mod_cast (show 0 < r.sectors.length by omega)
  have huε : u + σ ≤ r.sectors.length * (u + σ) := le_mul_of_one_le_left (by linarith) hN1
  have hε0 : 0 ≤ ε := by linarith
  obtain ⟨κ, hκ⟩ : ∃ κ, κ = H ^ ord useH + ε := ⟨_, rfl⟩
  rw [← hκ] at hκ1 ⊢
  have κ0 : 0 ≤ κ := by rw [hκ]; linarith
  have κ8 : κ ≤ 1 / 8 := by
    have := mul_le_mul_of_nonneg_right D8 κ0
    linarith
  have hε1 : ε ≤ 1 := by linarith
  -- the solver in exact arithmetic
  obtain ⟨rR, hrR⟩ : ∃ rR : BuildResult ℝ, rR = ⟨realMesh r.sectors, r.matchIndex⟩ := ⟨_, rfl⟩
  obtain ⟨vR, hvR⟩ : ∃ vR : Sec ℝ → ℕ → ℝ, vR = fun s k => (vs (flSec s) k).val := ⟨_, rfl⟩
  have hfR : FitMesh 0 M H W dmin.val dmax.val rR.sectors := by rw [hrR]; exact hf
  have hmR : rR.matchIndex < rR.sectors.length := by rw [hrR]; simpa [realMesh] using hm
  have het : EtaWithin 0 etaR := fun n _ Z i _ => by simp [etaR]
  have hvw : CoeffsWithin τ W rR.sectors vR := by
    rw [hrR]
    intro s hs
    obtain ⟨s', hs', rfl⟩ := List.mem_map.mp hs
    rw [hvR]
    exact hF.coeff s' hs'
  have hτε : τ + rR.sectors.length * (0 : ℝ) ≤ ε := by rw [mul_zero, add_zero]; linarith [mul_nonneg (Nat.cast_nonneg (α := ℝ) r.sectors.length) (show 0 ≤ u + σ by linarith)]
  have eL0 : (valY left).yE = 0 := congrArg Prod.fst pe1
  have eL1 : (valY left).dyE = 0 := congrArg Prod.snd pe1
  have eR0 : (valY right).yE = 0 := congrArg Prod.fst pe2
  have eR1 : (valY right).dyE = 0 := congrArg Prod.snd pe2
  have hC1κ : C1 * κ ≤ 1 := by
    have := mul_le_mul_of_nonneg_right (show C1 ≤ D by linarith) κ0
    linarith
  obtain ⟨eR, hR1, hR2, hR3⟩ := step 0 0 τ ε etaR vR W dmin.val dmax.val H lam E.val pi.val rR useH (valY left) (valY right) hfR het hvw hτε hε1 hd hd' hlam hmR pe1 pe2
    (by rw [← eSL]; exact pL) (by rw [← eSR]; exact pR) (by rw [hrR]; exact heig) (by rw [← hκ]; exact hC1κ) (hEl.trans (one_div_le_one_div_of_le (by linarith) (by linarith)))
  rw [← eSL, ← eSR] at hR2
  rw [← hκ] at hR3
  -- the exact solutions
  have ok := fit_okMesh hf hE
  have hab := (chn_range ok.chn ok.pos).1
  have aI : dmin.val ∈ Set.Icc dmin.val dmax.val := ⟨le_rfl, hab⟩
  have bI : dmax.val ∈ Set.Icc dmin.val dmax.val := ⟨hab, le_rfl⟩
  have fam : ∀ x0 ∈ Set.Icc dmin.val dmax.val, ∀ v : ℝ × ℝ, ∃ g dg : ℝ → ℝ → ℝ, ∀ F, SolvesMesh W F (realMesh r.sectors) (g F) (dg F) ∧ g F x0 = v.1 ∧ dg F x0 = v.2 := by
    intro x0 hx0 v
    have : ∀ F : ℝ, ∃ p : (ℝ → ℝ) × (ℝ → ℝ), SolvesMesh W F (realMesh r.sectors) p.1 p.2 ∧ p.1 x0 = v.1 ∧ p.2 x0 = v.2 := fun F => by
      obtain ⟨y, dy, h1, h2, h3⟩ := mesh_exists_at (okMesh_any hf hM F) hx0 v
      exact ⟨(y, dy), h1, h2, h3⟩
    choose p hp using this
    exact ⟨fun F => (p F).1, fun F => (p F).2, hp⟩
  obtain ⟨fL, dfL, hL⟩ := fam dmin.val aI (pr (valY left))
  obtain ⟨fR, dfR, hR⟩ := fam dmax.val bI (pr (valY right))
  have cst : ∀ {g : ℝ → ℝ} {v e : ℝ}, (∀ F, g F = v) → e = 0 → HasDerivAt g e E.val := by
    intro g v e h1 h2
    have : g = fun _ => v := funext h1
    rw [this, h2]; exact hasDerivAt_const _ _
  have d1 : HasDerivAt (fun F => fL F dmin.val) (valY left).yE E.val := cst (fun F => (hL F).2.1) eL0
  have d2 : HasDerivAt (fun F => dfL F dmin.val) (valY left).dyE E.val := cst (fun F => (hL F).2.2) eL1
  have d3 : HasDerivAt (fun F => fR F dmax.val) (valY right).yE E.val := cst (fun F => (hR F).2.1) eR0
  have d4 : HasDerivAt (fun F => dfR F dmax.val) (valY right).dyE E.val := cst (fun F => (hR F).2.2) eR1
  obtain ⟨e2, n1, n2⟩ := near 0 0 τ ε etaR vR W dmin.val dmax.val H E.val pi.val rR useH (valY left) (valY right) (fL E.val) (dfL E.val) (fR E.val) (dfR E.val) hfR het hvw hτε hε1 hd hE hmR
    (by rw [hrR]; exact (hL _).1) (hL _).2.1 (hL _).2.2 (by rw [hrR]; exact (hR _).1) (hR _).2.1 (hR _).2.2
  rw [hR1] at n1
  cases n1
  obtain ⟨e3, dd, q1, q2, q3⟩ := der 0 ε etaR vR W dmin.val dmax.val H E.val pi.val rR useH (valY left) (valY right) fL dfL fR dfR hfR ⟨hε1, 0, τ, het, hvw, hτε⟩ hd hE hmR
    (by rw [hrR]; exact fun F => (hL F).1) (hL _).2.1 (hL _).2.2 d1 d2 (by rw [hrR]; exact fun F => (hR F).1) (hR _).2.1 (hR _).2.2 d3 d4
  rw [hR1] at q1
  cases q1
  obtain ⟨err, d, k1, k2, k3, k4, -⟩ := flk fl H u mu σ τ ε W dmin dmax eps r eta vs th pru pi E useH left right sL sR sL sR fL dfL fR dfR hF hσ0 hε (by rw [← hκ]; exact κ8) hd hE hm eSL eSR
    (by rw [pe1]; simp [sz]) (by rw [pe2]; simp [sz]) muL muR muLR (fun F => (hL F).1) (hL _).2.1 (hL _).2.2 d1 d2 (fun F => (hR F).1) (hR _).2.1 (hR _).2.2 d3 d4
  have ddd : dd = d := (q2 _ aI).unique (k2 _ aI)
  rw [ddd] at q3
  have n2 := n2 _ aI
  have k3 := k3 _ aI
  obtain ⟨N, hN⟩ : ∃ N, N = sL * sR := ⟨_, rfl⟩
  have N0 : 0 < N := by rw [hN]; positivity
  rw [← hκ, ← eSL, ← eSR, ← hN] at n2
  have q3 : |eR.2.1 - d| ≤ C3 * κ * N := by
    rw [eL0, eL1, eR0, eR1, abs_zero, max_self, zero_add, zero_add] at q3
    have x1 : max |(valY left).y| |(valY left).dy| = sL := by rw [eSL]; rfl
    have x2 : max |(valY right).y| |(valY right).dy| = sR := by rw [eSR]; rfl
    rw [x1, x2, ← hN] at q3
    rw [hκ]; exact q3
  rw [← hκ, ← hN] at k3 k4
  rw [← hN] at hR2 ⊢
  have near1 : |err.1.val - eR.1| ≤ K * κ * N := by
    have : err.1.val - eR.1 = (err.1.val - (dfL E.val dmin.val * fR E.val dmin.val - dfR E.val dmin.val * fL E.val dmin.val)) -
      (eR.1 - (dfL E.val dmin.val * fR E.val dmin.val - dfR E.val dmin.val * fL E.val dmin.val)) := by ring
    rw [this]
    refine (abs_sub _ _).trans ?_
    have : 0 ≤ C3 * κ * N := by positivity
    rw [hK]; linarith only [this, n2, k3, (by ring : (C2 + C3 + C4) * κ * N = C2 * κ * N + C3 * κ * N + C4 * κ * N)]
  have near2 : |err.2.1.val - eR.2.1| ≤ K * κ * N := by
    have : err.2.1.val - eR.2.1 = (err.2.1.val - d) - (eR.2.1 - d) := by ring
    rw [this]
    refine (abs_sub _ _).trans ?_
    have : 0 ≤ C2 * κ * N := by positivity
    rw [hK]; linarith only [this, q3, k4, (by ring : (C2 + C3 + C4) * κ * N = C2 * κ * N + C3 * κ * N + C4 * κ * N)]
  have hA' := hF.arith hσ0 (by linarith) hsm
  have hκ2 : 2 * C1 * (K * κ) ≤ 1 := by
    have := mul_le_mul_of_nonneg_right DK κ0
    linarith only [this, hκ1, (by ring : 2 * C1 * (K * κ) = 2 * C1 * K * κ)]
  have fin := newton_round (M := M) (lam := lam) hF.r hu0 (show u ≤ κ by rw [hκ]; linarith) hA'.mu1 N0 K1 hC1 hM hE rfl
    (hEl.trans (by rw [div_le_one (by linarith)]; linarith)) hR2 (by rw [sq_abs]; exact hR3) near1 near2 hκ2
  refine ⟨err, k1, fin.1.trans (mul_le_mul_of_nonneg_right DC (abs_nonneg _)), ?_⟩
  have := fin.2
  rw [sq_abs, ← hD] at this
  exact this

end Verif.Fp
