import Verif.Lemmas.NewtonNear
import Verif.Props.Search
import Verif.Props.UniformSolve

/-!
# C88: Newton polishing converges to the exact eigenvalue

`newtonIteration` and `eigenvalueError` (`Model/Search`) run on the solver's own `matchingError` (`Model/Propagate`, `Model/Solver`).
-/
namespace Verif.Solver
open Verif.Mesh Verif.YT Verif.CalcT Verif.Propag Verif.Formulas Verif.Legendre Verif.Spec Verif.Search

/-- `matchingError` succeeds at every energy. -/
theorem matching_total {eps M H : ℝ} {W : Sec ℝ → ℝ → ℝ} {dmin dmax : ℝ} {r : BuildResult ℝ} (hf : FitMesh eps M H W dmin dmax r.sectors)
    (hm : r.matchIndex < r.sectors.length) (eta : ℕ → ℝ → ℕ → ℝ) (vs : Sec ℝ → ℕ → ℝ) (pi : ℝ) (useH : Bool) (left right : Y ℝ) :
    ∃ me : ℝ → ℝ × ℝ × ℝ, ∀ E, (constructOf eps eta vs dmin dmax r).matchingError pi E left right useH = .ok (me E) := by
  set P := constructOf eps eta vs dmin dmax r with hP
  obtain ⟨v0M, hsecs⟩ := construct_secs eps eta vs dmin dmax r
  rw [← hP] at hsecs
  have hPm : P.mesh = r.sectors := construct_mesh _ _ _ _ _ _
  have hmesh : IsMesh P.mesh P.dmin P.dmax := by rw [hPm]; exact hf.mesh
  have hlen : r.matchIndex < P.secs.length := by rw [hsecs, List.length_map]; exact hm
  have hmi : P.matchIndex = r.matchIndex := rfl
  have rg := srange hmesh hlen
  have d1 : domainContains P.dmin P.dmax P.dmin = true := by simp [domainContains]; linarith
  have d2 : domainContains P.dmin P.dmax P.dmax = true := by simp [domainContains]; linarith
  have d3 : domainContains P.dmin P.dmax (P.secs[r.matchIndex]).max = true := by
    simp only [domainContains, ccmp_le, Bool.and_eq_true, decide_eq_true_eq]; constructor <;> linarith
  obtain ⟨i1, j1, a1, b1, a1', b1', a1'', b1'', h1⟩ := propagate_closed P hmesh pi P.dmin (P.secs[r.matchIndex]).max useH d1 d3
  obtain ⟨i2, j2, a2, b2, a2', b2', a2'', b2'', h2⟩ := propagate_closed P hmesh pi P.dmax (P.secs[r.matchIndex]).max useH d2 d3
  refine Classical.axiomOfChoice (r := fun E e => P.matchingError pi E left right useH = .ok e) (fun E => ?_)
  unfold Prob.matchingError
  rw [hmi, List.getElem?_eq_getElem hlen]
  simp only [h1, h2, Outcome.bind_ok, Outcome.pure_eq]
  exact ⟨_, rfl⟩

/-- A quadratically convergent sequence with a floor. -/
theorem newton_seq {C κ : ℝ} (hC : 1 ≤ C) (hκ : 0 ≤ κ) {x : ℕ → ℝ} (h : ∀ m, x m ≤ 1 / C → x (m + 1) ≤ C * (x m ^ 2 + κ)) (hx : ∀ m, 0 ≤ x m)
    (h0 : x 0 ≤ 1 / (4 * C)) (hκ1 : 8 * C ^ 2 * κ ≤ 1) : ∀ m, x m ≤ (1 / 2) ^ 2 ^ m / (2 * C) + 2 * C * κ ∧ x m ≤ 1 / (2 * C) := by
  have C0 : 0 < C := by linarith
  have k1 : 2 * C * κ ≤ 1 / (4 * C) := by rw [le_div_iff₀ (by positivity)]; linarith
  have e4 : 1 / (4 * C) = 1 / (2 * C) / 2 := by field_simp; norm_num
  intro m
  induction m with
  | zero =>
    refine ⟨?_, h0.trans ?_⟩
    · rw [pow_zero, pow_one, show (1 / 2 : ℝ) / (2 * C) = 1 / (4 * C) by field_simp; norm_num]
      have : 0 ≤ 2 * C * κ := by positivity
      linarith
    · rw [e4]
      have : 0 < 1 / (2 * C) := by positivity
      linarith
  | succ m ih =>
    obtain ⟨i1, i2⟩ := ih
    have hle : x m ≤ 1 / C := i2.trans (one_div_le_one_div_of_le C0 (by linarith))
    have st := h m hle
    set u : ℝ := (1 / 2) ^ 2 ^ m with hu
    have u0 : 0 < u := by positivity
    have u2 : (1 / 2 : ℝ) ^ 2 ^ (m + 1) = u ^ 2 := by rw [hu, ← pow_mul, pow_succ]
    have u1 : u ^ 2 ≤ 1 / 4 := by
      have : u ≤ 1 / 2 := by
        rw [hu]
        calc (1 / 2 : ℝ) ^ 2 ^ m ≤ (1 / 2 : ℝ) ^ 1 := pow_le_pow_of_le_one (by norm_num) (by norm_num) Nat.one_le_two_pow
          _ = 1 / 2 := pow_one _
      nlinarith
    have a1 : x m ^ 2 ≤ (u / (2 * C) + 2 * C * κ) ^ 2 := pow_le_pow_left₀ (hx m) i1 2
    have a2 : (u / (2 * C) + 2 * C * κ) ^ 2 ≤ 2 * (u / (2 * C)) ^ 2 + 2 * (2 * C * κ) ^ 2 := by nlinarith [sq_nonneg (u / (2 * C) - 2 * C * κ)]
    have a3 : C * (2 * (u / (2 * C)) ^ 2) = u ^ 2 / (2 * C) := by field_simp
    have a4 : C * (2 * (2 * C * κ) ^ 2) = 8 * C ^ 2 * κ * (C * κ) := by ring
    have a5 : 8 * C ^ 2 * κ * (C * κ) ≤ 1 * (C * κ) := mul_le_mul_of_nonneg_right hκ1 (by positivity)
    have a6 : C * (x m ^ 2 + κ) ≤ C * (2 * (u / (2 * C)) ^ 2 + 2 * (2 * C * κ) ^ 2 + κ) := mul_le_mul_of_nonneg_left (by linarith) C0.le
    have b1 : x (m + 1) ≤ u ^ 2 / (2 * C) + 2 * C * κ := by
      have : C * (2 * (u / (2 * C)) ^ 2 + 2 * (2 * C * κ) ^ 2 + κ) = C * (2 * (u / (2 * C)) ^ 2) + C * (2 * (2 * C * κ) ^ 2) + C * κ := by ring
      linarith
    rw [u2]
    refine ⟨b1, b1.trans ?_⟩
    have b2 : u ^ 2 / (2 * C) ≤ 1 / (4 * C) := by
      rw [div_le_div_iff₀ (by positivity) (by positivity)]; nlinarith
    rw [e4] at b2 k1
    linarith

/-- The same sequence never moves away from its limit by more than the floor. -/
theorem newton_stay {C κ : ℝ} (hC : 1 ≤ C) {x : ℕ → ℝ} (h : ∀ m, x m ≤ 1 / C → x (m + 1) ≤ C * (x m ^ 2 + κ)) (hx : ∀ m, 0 ≤ x m)
    (hs : ∀ m, x m ≤ 1 / (2 * C)) (hκ : 0 ≤ κ) : ∀ m, x m ≤ x 0 + 2 * C * κ := by
  have C0 : 0 < C := by linarith
  intro m
  induction m with
  | zero => have : 0 ≤ 2 * C * κ := by positivity
            linarith
  | succ m ih =>
    have st := h m ((hs m).trans (one_div_le_one_div_of_le C0 (by linarith)))
    have h1 : C * x m ≤ 1 / 2 := by
      have := mul_le_mul_of_nonneg_left (hs m) C0.le
      rwa [show C * (1 / (2 * C)) = 1 / 2 by field_simp] at this
    have h2 : C * x m ^ 2 ≤ x m / 2 := by
      have := mul_le_mul_of_nonneg_right h1 (hx m)
      rw [pow_two, ← mul_assoc]; linarith
    have := hx 0
    linarith [mul_add C (x m ^ 2) κ]

set_option maxHeartbeats 800000 in
/-- **C88.** For every bound `M` there is a constant `C` such that for every mesh and potential within the bounds, all non-zero boundary
values (without energy derivative), every exact eigenvalue `λ`, `|λ| ≤ M`, and every start `E` with `|E - λ| ≤ 1/C`, if
`C (H^16 + ε) ≤ 1`: `matchingError` succeeds everywhere, the `m`-th Newton iterate is within `2^(-2^m) + C (H^16 + ε)` of `λ` (quadratic
convergence down to the discretisation error), no iterate is farther from `λ` than `|E - λ| + C (H^16 + ε)`, and `newtonIteration` with any tolerance `tol` returns an energy within
`C (tol² + H^16 + ε) + 2^(-2^20)` of `λ`. -/
theorem C88_newton_converges (M : ℝ) (hM : 1 ≤ M) : ∃ C : ℝ, 1 ≤ C ∧ ∀ (eps ε : ℝ) (eta : ℕ → ℝ → ℕ → ℝ) (vs : Sec ℝ → ℕ → ℝ) (W : Sec ℝ → ℝ → ℝ)
    (dmin dmax H lam pi : ℝ) (r : BuildResult ℝ) (useH : Bool) (left right : Y ℝ),
    FitMesh eps M H W dmin dmax r.sectors → AccurateTo ε W r.sectors eta vs → dmax - dmin ≤ M → 1 / M ≤ dmax - dmin → |lam| ≤ M →
    r.matchIndex < r.sectors.length → (left.y ≠ 0 ∨ left.dy ≠ 0) → (right.y ≠ 0 ∨ right.dy ≠ 0) →
    left.yE = 0 → left.dyE = 0 → right.yE = 0 → right.dyE = 0 →
    IsEigenvalue W r.sectors dmin dmax (left.y, left.dy) (right.y, right.dy) lam →
    C * (H ^ (if useH then 16 else 14) + ε) ≤ 1 →
    ∃ me : ℝ → ℝ × ℝ × ℝ, (∀ E, (constructOf eps eta vs dmin dmax r).matchingError pi E left right useH = .ok (me E)) ∧
      ∀ E, |E - lam| ≤ 1 / C →
        (∀ m, |iterate me E m - lam| ≤ (1 / 2) ^ 2 ^ m + C * (H ^ (if useH then 16 else 14) + ε)) ∧
        (∀ m, |iterate me E m - lam| ≤ |E - lam| + C * (H ^ (if useH then 16 else 14) + ε)) ∧
        ∀ tol, ∃ idx E', newton me pi tol E = .ok (idx, E') ∧
          |E' - lam| ≤ C * (tol ^ 2 + H ^ (if useH then 16 else 14) + ε) + (1 / 2) ^ 2 ^ 20 := by
  obtain ⟨C, hC, key⟩ := newton_step M hM
  have C0 : 0 < C := by linarith
  refine ⟨8 * C ^ 4 + 8 * C ^ 2, by nlinarith [pow_nonneg C0.le 4], ?_⟩
  intro eps ε eta vs W dmin dmax H lam pi r useH left right hf ⟨hε1, σ, τ, he, hv, hε⟩ hd hd' hlam hm hl hr l3 l4 r3 r4 heig hκ1
  obtain ⟨me, hme⟩ := matching_total hf hm eta vs pi useH left right
  refine ⟨me, hme, ?_⟩
  intro E hE
  change (8 * C ^ 4 + 8 * C ^ 2) * (H ^ ord useH + ε) ≤ 1 at hκ1
  have hε0 : 0 ≤ ε := by
    have h1 := (hv _ (List.getElem_mem hm)).nonneg
    have h2 := mul_nonneg (Nat.cast_nonneg (α := ℝ) r.sectors.length) he.nonneg
    linarith
  have hH0 := fit_pos hf
  set κ := H ^ ord useH + ε with hκ
  have κ0 : 0 ≤ κ := by positivity
  have c2 : C ≤ C ^ 2 := by nlinarith
  have c4 : 0 ≤ C ^ 4 := by positivity
  have hκ8 : 8 * C ^ 2 * κ ≤ 1 := le_trans (mul_le_mul_of_nonneg_right (by linarith) κ0) hκ1
  have hκC : C * κ ≤ 1 := le_trans (mul_le_mul_of_nonneg_right (by nlinarith) κ0) hκ1
  have step : ∀ F, |F - lam| ≤ 1 / C → |F - (me F).1 / (me F).2.1 - lam| ≤ C * (|F - lam| ^ 2 + κ) := by
    intro F hF
    obtain ⟨err, e1, -, e2⟩ := key eps σ τ ε eta vs W dmin dmax H lam F pi r useH left right hf he hv hε hε1 hd hd' hlam hm (by simp [pe, l3, l4]) (by simp [pe, r3, r4])
      (sz_pos_of hl) (sz_pos_of hr) heig hκC hF
    rw [hme F] at e1
    cases e1
    rw [sq_abs]; exact e2
  have h0 : |iterate me E 0 - lam| ≤ 1 / (4 * C) := by
    refine hE.trans (one_div_le_one_div_of_le (by positivity) ?_)
    nlinarith
  have seq := newton_seq hC κ0 (x := fun m => |iterate me E m - lam|) (fun m hx => step _ hx) (fun _ => abs_nonneg _) h0 hκ8
  have conv : ∀ m, |iterate me E m - lam| ≤ (1 / 2) ^ 2 ^ m + (8 * C ^ 4 + 8 * C ^ 2) * κ := by
    intro m
    refine ((seq m).1).trans (add_le_add ?_ (mul_le_mul_of_nonneg_right (by nlinarith) κ0))
    have : (0 : ℝ) < (1 / 2) ^ 2 ^ m := by positivity
    rw [div_le_iff₀ (by positivity)]
    nlinarith
  have stay : ∀ m, |iterate me E m - lam| ≤ |E - lam| + (8 * C ^ 4 + 8 * C ^ 2) * κ := by
    intro m
    refine (newton_stay hC (x := fun m => |iterate me E m - lam|) (fun m hx => step _ hx) (fun _ => abs_nonneg _) (fun m => (seq m).2) κ0 m).trans
      (add_le_add le_rfl (mul_le_mul_of_nonneg_right (by nlinarith) κ0))
  refine ⟨conv, stay, fun tol => ?_⟩
  obtain ⟨m, m1, m20, e1, -, -, -, stop⟩ := newtonLoop_spec me tol 19 E
  refine ⟨_, (newtonLoop me tol 19 E).1, rfl, ?_⟩
  rw [e1]
  have t0 : (0 : ℝ) ≤ (1 / 2) ^ 2 ^ 20 := pow_nonneg (by norm_num) _
  rcases stop with h | h
  · -- all twenty iterations
    subst h
    refine (conv (19 + 1)).trans ?_
    have : (8 * C ^ 4 + 8 * C ^ 2) * κ ≤ (8 * C ^ 4 + 8 * C ^ 2) * (tol ^ 2 + H ^ (if useH then 16 else 14) + ε) := by
      refine mul_le_mul_of_nonneg_left ?_ (by positivity)
      rw [add_assoc]
      exact le_add_of_nonneg_left (sq_nonneg tol)
    rw [show (19 + 1 : ℕ) = 20 from rfl]
    linarith
  · -- stopped by the tolerance
    obtain ⟨k, rfl⟩ : ∃ k, m = k + 1 := ⟨m - 1, by omega⟩
    rw [Nat.add_sub_cancel] at h
    simp only [ccmp_lt, decide_eq_false_iff_not, not_lt, correction, absK_eq] at h
    set F := iterate me E k with hF
    have hFs := (seq k).2
    have hFC : |F - lam| ≤ 1 / C := hFs.trans (one_div_le_one_div_of_le C0 (by linarith))
    have s1 := step F hFC
    set x := |F - lam| with hx
    have x0 : 0 ≤ x := abs_nonneg _
    -- the distance before the last step
    have a1 : x ≤ tol + C * (x ^ 2 + κ) := by
      have : F - lam = (me F).1 / (me F).2.1 + (F - (me F).1 / (me F).2.1 - lam) := by ring
      rw [hx, this]
      exact (abs_add_le _ _).trans (add_le_add h (by rw [← this]; exact s1))
    have a2 : C * x ^ 2 ≤ x / 2 := by
      have : C * x ≤ 1 / 2 := by
        have := mul_le_mul_of_nonneg_left hFs C0.le
        rw [show C * (1 / (2 * C)) = 1 / 2 by field_simp] at this
        exact this
      nlinarith
    have a3 : x ≤ 2 * (tol + C * κ) := by linarith [mul_add C (x ^ 2) κ]
    have a4 : x ^ 2 ≤ 8 * tol ^ 2 + 8 * (C * κ) ^ 2 := by
      have := pow_le_pow_left₀ x0 a3 2
      nlinarith [sq_nonneg (tol - C * κ)]
    have a5 : (C * κ) ^ 2 ≤ C ^ 2 * κ := by
      have : κ ≤ 1 := by nlinarith
      have : C ^ 2 * (κ * κ) ≤ C ^ 2 * (1 * κ) := mul_le_mul_of_nonneg_left (mul_le_mul_of_nonneg_right this κ0) (by positivity)
      nlinarith
    show |F - (me F).1 / (me F).2.1 - lam| ≤ _
    have a6 : C * (x ^ 2 + κ) ≤ C * (8 * tol ^ 2 + 8 * (C ^ 2 * κ) + κ) := mul_le_mul_of_nonneg_left (by linarith) C0.le
    have c3 : C ^ 3 ≤ C ^ 4 := pow_le_pow_right₀ hC (by norm_num)
    have a7 : C * (8 * tol ^ 2 + 8 * (C ^ 2 * κ) + κ) ≤ (8 * C ^ 4 + 8 * C ^ 2) * (tol ^ 2 + κ) := by
      have b1 : 8 * C * tol ^ 2 ≤ (8 * C ^ 4 + 8 * C ^ 2) * tol ^ 2 := mul_le_mul_of_nonneg_right (by nlinarith) (sq_nonneg _)
      have b2 : (8 * C ^ 3 + C) * κ ≤ (8 * C ^ 4 + 8 * C ^ 2) * κ := mul_le_mul_of_nonneg_right (by nlinarith) κ0
      nlinarith
    have a8 : tol ^ 2 + H ^ (if useH then 16 else 14) + ε = tol ^ 2 + κ := by rw [hκ]; unfold ord; ring
    rw [a8]
    linarith

/-- **C88.** The error estimate: for a computed eigenvalue `E` near an exact one `λ`, `eigenvalueError` (Newton with `use_h = false`, starting
from `E`) returns the true error `|E - λ|` up to `C (tol² + H^14 + ε) + 2^(-2^20)`. -/
theorem C88_error_estimate (M : ℝ) (hM : 1 ≤ M) : ∃ C : ℝ, 1 ≤ C ∧ ∀ (eps ε : ℝ) (eta : ℕ → ℝ → ℕ → ℝ) (vs : Sec ℝ → ℕ → ℝ) (W : Sec ℝ → ℝ → ℝ)
    (dmin dmax H lam pi : ℝ) (r : BuildResult ℝ) (left right : Y ℝ),
    FitMesh eps M H W dmin dmax r.sectors → AccurateTo ε W r.sectors eta vs → dmax - dmin ≤ M → 1 / M ≤ dmax - dmin → |lam| ≤ M →
    r.matchIndex < r.sectors.length → (left.y ≠ 0 ∨ left.dy ≠ 0) → (right.y ≠ 0 ∨ right.dy ≠ 0) →
    left.yE = 0 → left.dyE = 0 → right.yE = 0 → right.dyE = 0 →
    IsEigenvalue W r.sectors dmin dmax (left.y, left.dy) (right.y, right.dy) lam →
    C * (H ^ 14 + ε) ≤ 1 →
    ∃ me : ℝ → ℝ × ℝ × ℝ, (∀ E, (constructOf eps eta vs dmin dmax r).matchingError pi E left right false = .ok (me E)) ∧
      ∀ E tol, |E - lam| ≤ 1 / C → ∃ est, eigenvalueError me pi tol E = .ok est ∧
        |est - abs (E - lam)| ≤ C * (tol ^ 2 + H ^ 14 + ε) + (1 / 2) ^ 2 ^ 20 := by
  obtain ⟨C, hC, key⟩ := C88_newton_converges M hM
  refine ⟨C, hC, ?_⟩
  intro eps ε eta vs W dmin dmax H lam pi r left right hf ha hd hd' hlam hm hl hr l3 l4 r3 r4 heig hκ
  obtain ⟨me, h1, h2⟩ := key eps ε eta vs W dmin dmax H lam pi r false left right hf ha hd hd' hlam hm hl hr l3 l4 r3 r4 heig hκ
  refine ⟨me, h1, fun E tol hE => ?_⟩
  obtain ⟨idx, E', h3, h4⟩ := (h2 E hE).2.2 tol
  refine ⟨|E - E'|, ?_, ?_⟩
  · unfold eigenvalueError
    rw [h3]
    simp [absK_eq]
  · refine le_trans ?_ h4
    have := abs_abs_sub_abs_le_abs_sub (E - E') (E - lam)
    refine this.trans (le_of_eq ?_)
    rw [show E - E' - (E - lam) = -(E' - lam) by ring, abs_neg]

/-- C88: `V(x) = x²` on `[-1, 1]`, eigenvalue `1`, enough uniform sectors: the hypotheses are met, and Newton from any start at a distance at
most `1/C` returns the eigenvalue up to `C (tol² + h^16) + 2^(-2^20)`. -/
example : ∃ C : ℝ, 1 ≤ C ∧ ∀ (n : ℕ) (cmp : Sec ℝ → Sec ℝ → Bool) (pi tol E : ℝ), 2 * C ≤ n → |E - 1| ≤ 1 / C → ∃ r me idx E', uniformBuild cmp n (-1) 1 = .ok r ∧
    (∀ F, (constructOf 0 etaExact (exactVs fun x => x ^ 2) (-1) 1 r).matchingError pi F ⟨1, 1, 0, 0⟩ ⟨1, -1, 0, 0⟩ true = .ok (me F)) ∧
    newton me pi tol E = .ok (idx, E') ∧ |E' - 1| ≤ C * (tol ^ 2 + ((1 - -1) / n) ^ 16 + 0) + (1 / 2) ^ 2 ^ 20 := by
  obtain ⟨C, hC, key⟩ := C88_newton_converges 2 (by norm_num)
  refine ⟨C, hC, fun n cmp pi tol E hn hE => ?_⟩
  obtain ⟨h1, h2, h3, h4⟩ := inv_small hC hn
  obtain ⟨r, e1, hlen, hm, hf, hc, hp, hne⟩ := uniform_fit cmp h1 le_rfl osc_smooth h2 h3
  have hv : CoeffsWithin 0 (fun _ x => x ^ 2) r.sectors (exactVs fun x => x ^ 2) := coeffs_on_mesh (exact_coeffs _ _ _ _) hf hc hp
  obtain ⟨me, m1, m2⟩ := key 0 0 etaExact (exactVs fun x => x ^ 2) (fun _ x => x ^ 2) (-1) 1 ((1 - -1) / n) 1 pi r true ⟨1, 1, 0, 0⟩ ⟨1, -1, 0, 0⟩ hf
    ⟨by norm_num, 0, 0, etaWithin_exact, hv, by simp⟩ (by norm_num) (by norm_num) (by norm_num) hm (by norm_num) (by norm_num) rfl rfl rfl rfl
    ((isEigenvalue_iff hc hp hne _ _ _).mpr osc_eigen) (by simpa using h4)
  obtain ⟨idx, E', k1, k2⟩ := (m2 E hE).2.2 tol
  exact ⟨r, me, idx, E', e1, m1, k1, by simpa using k2⟩

end Verif.Solver
