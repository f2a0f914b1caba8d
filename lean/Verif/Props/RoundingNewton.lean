import Verif.Lemmas.FlNewtonStep
import Verif.Props.Rounding
import Verif.Props.Search

/-!
# Energy derivatives and Newton's iteration in finite precision: C123 – C126

As in `Props/Rounding`: every operation of `calculateT`, of the formula tables, of `propagate`, of `matchingError` and of `newtonIteration` is rounded (`Model/Rounded`). `[CInt (Fl fl)]`, the conversion of the
angle to an index, and the angles themselves (`th`, `pru`) are arbitrary: they do not influence the energies.
-/
namespace Verif.Fp
open Verif.Mesh Verif.YT Verif.CalcT Verif.Propag Verif.Solver Verif.Spec Verif.Legendre Verif.Search

/-- **C123.** The energy derivatives that `propagate` computes in finite precision. For every bound `M` there is a constant `C` such that, in every finite precision, for every family `f F` of exact solutions
(one for each energy `F`) that is differentiable in the energy at the mesh point `a`: `propagate` from `a` to the mesh point `b`, started with the values of the family and its energy derivative, succeeds, the family is differentiable in the energy at `b`, and the computed solution and
the computed energy derivative at `b` are within `C (H^16 + ε)` of the exact ones, relative to the size of the start values, `ε ≥ τ + N (u + σ)`. -/
theorem C123_energy_derivative (M : ℝ) (hM : 1 ≤ M) : ∃ C : ℝ, 1 ≤ C ∧ ∀ (fl : ℝ → ℝ) (H u mu σ τ ε : ℝ) (W : Sec ℝ → ℝ → ℝ) (dmin dmax eps : Fl fl) (r : BuildResult (Fl fl))
    (eta : ℕ → Fl fl → ℕ → Fl fl) (vs : Sec (Fl fl) → ℕ → Fl fl) (th : Fl fl → Fl fl → Fl fl → Y (Fl fl) → Fl fl) (pru : Fl fl → Fl fl → Fl fl → Fl fl → Y (Fl fl) → Y (Fl fl) → Fl fl)
    (pi E a b : Fl fl) (useH : Bool) (f df : ℝ → ℝ → ℝ) (c : Y (Fl fl)) (s t : ℝ),
    FlFit M H u mu σ τ (6 * M * H) W dmin dmax eps r.sectors eta vs → 0 ≤ σ → τ + r.sectors.length * (u + σ) ≤ ε → ε ≤ 1 / 8 → dmax.val - dmin.val ≤ M → |E.val| ≤ M →
    a.val ∈ Set.Icc dmin.val dmax.val → b.val ∈ Set.Icc dmin.val dmax.val → IsBoundary (bounds (realMesh r.sectors)) a.val → IsBoundary (bounds (realMesh r.sectors)) b.val →
    (∀ F, SolvesMesh W F (realMesh r.sectors) (f F) (df F)) → c.y.val = f E.val a.val → c.dy.val = df E.val a.val →
    HasDerivAt (fun F => f F a.val) c.yE.val E.val → HasDerivAt (fun F => df F a.val) c.dyE.val E.val →
    s = max |c.y.val| |c.dy.val| → t = max |c.yE.val| |c.dyE.val| →
    ∃ res yE dyE, (constructGen eps eta th pru vs dmin dmax r).propagate pi E c a b useH = .ok res ∧
      HasDerivAt (fun F => f F b.val) yE E.val ∧ HasDerivAt (fun F => df F b.val) dyE E.val ∧
      |res.1.y.val - f E.val b.val| ≤ C * (H ^ (if useH then 16 else 14) + ε) * (s + mu) ∧ |res.1.dy.val - df E.val b.val| ≤ C * (H ^ (if useH then 16 else 14) + ε) * (s + mu) ∧
      |res.1.yE.val - yE| ≤ C * (H ^ (if useH then 16 else 14) + ε) * (t + s + mu) ∧ |res.1.dyE.val - dyE| ≤ C * (H ^ (if useH then 16 else 14) + ε) * (t + s + mu) := by
  obtain ⟨C, hC, key⟩ := converge_dfl M hM
  refine ⟨C, hC, ?_⟩
  intro fl H u mu σ τ ε W dmin dmax eps r eta vs th pru pi E a b useH f df c s t hF hσ hε hε1 hd hE ha hb ba bb hfam c1 c2 d1 d2 es et
  obtain ⟨z, dz, hz, z1, z2, hz'⟩ := family_deriv hM hF.fit hE hfam ha d1 d2
  obtain ⟨res, h1, -, -, h4, h5⟩ := key fl H u mu σ τ ε W dmin dmax eps r eta vs th pru pi E a b useH (f E.val) (df E.val) z dz c hF hσ hε hε1 hd hE (hfam _) hz ba bb
    (by rw [← c1, ← c2]; rfl) (by rw [z1, z2]; rfl)
  rw [z1, z2, ← c1, ← c2] at h5
  rw [← c1, ← c2] at h4
  have e1 : sz (c.y.val, c.dy.val) = s := es.symm
  have e2 : sz (c.yE.val, c.dyE.val) = t := et.symm
  rw [e1] at h4 h5
  rw [e2, ← add_assoc] at h5
  exact ⟨res, z b.val, dz b.val, h1, (hz' _ hb).1, (hz' _ hb).2, (le_sz1 _).trans h4, (le_sz2 _).trans h4, (le_sz1 _).trans h5, (le_sz2 _).trans h5⟩

/-- **C124.** The derivative that `matchingError` returns in finite precision (the one Newton's method divides by) is the derivative with respect to the energy of the exact mismatch `y_L' y_R - y_R' y_L`,
up to `C (H^16 + ε)` relative to the size of the boundary values (including their own energy derivatives). -/
theorem C124_matching_derivative (M : ℝ) (hM : 1 ≤ M) : ∃ C : ℝ, 1 ≤ C ∧ ∀ (fl : ℝ → ℝ) (H u mu σ τ ε : ℝ) (W : Sec ℝ → ℝ → ℝ) (dmin dmax eps : Fl fl) (r : BuildResult (Fl fl))
    (eta : ℕ → Fl fl → ℕ → Fl fl) (vs : Sec (Fl fl) → ℕ → Fl fl) (th : Fl fl → Fl fl → Fl fl → Y (Fl fl) → Fl fl) (pru : Fl fl → Fl fl → Fl fl → Fl fl → Y (Fl fl) → Y (Fl fl) → Fl fl)
    (pi E : Fl fl) (useH : Bool) (left right : Y (Fl fl)) (sL sR tL tR : ℝ) (fL dfL fR dfR : ℝ → ℝ → ℝ),
    FlFit M H u mu σ τ (6 * M * H) W dmin dmax eps r.sectors eta vs → 0 ≤ σ → τ + r.sectors.length * (u + σ) ≤ ε → H ^ (if useH then 16 else 14) + ε ≤ 1 / 8 → dmax.val - dmin.val ≤ M → |E.val| ≤ M →
    r.matchIndex < r.sectors.length → sL = max |left.y.val| |left.dy.val| → sR = max |right.y.val| |right.dy.val| → tL = max |left.yE.val| |left.dyE.val| → tR = max |right.yE.val| |right.dyE.val| →
    mu ≤ sL → mu ≤ sR → mu ≤ sL * sR →
    (∀ F, SolvesMesh W F (realMesh r.sectors) (fL F) (dfL F)) → fL E.val dmin.val = left.y.val → dfL E.val dmin.val = left.dy.val →
    HasDerivAt (fun F => fL F dmin.val) left.yE.val E.val → HasDerivAt (fun F => dfL F dmin.val) left.dyE.val E.val →
    (∀ F, SolvesMesh W F (realMesh r.sectors) (fR F) (dfR F)) → fR E.val dmax.val = right.y.val → dfR E.val dmax.val = right.dy.val →
    HasDerivAt (fun F => fR F dmax.val) right.yE.val E.val → HasDerivAt (fun F => dfR F dmax.val) right.dyE.val E.val →
    ∃ err d, (constructGen eps eta th pru vs dmin dmax r).matchingError pi E left right useH = .ok err ∧
      (∀ x ∈ Set.Icc dmin.val dmax.val, HasDerivAt (fun F => dfL F x * fR F x - dfR F x * fL F x) d E.val) ∧
      |err.2.1.val - d| ≤ C * (H ^ (if useH then 16 else 14) + ε) * ((tL + sL) * (tR + sR)) := by
  obtain ⟨C, hC, key⟩ := matching_dfl M hM
  refine ⟨C, hC, ?_⟩
  intro fl H u mu σ τ ε W dmin dmax eps r eta vs th pru pi E useH left right sL sR tL tR fL dfL fR dfR hF hσ hε hκ hd hE hm e1 e2 e3 e4 m1 m2 m3 hL l1 l2 l3 l4 hR r1 r2 r3 r4
  obtain ⟨err, d, h1, h2, -, h3, -⟩ := key fl H u mu σ τ ε W dmin dmax eps r eta vs th pru pi E useH left right sL sR (tL + sL) (tR + sR) fL dfL fR dfR hF hσ hε hκ hd hE hm e1 e2
    (by rw [e3]; rfl) (by rw [e4]; rfl) m1 m2 m3 hL l1 l2 l3 l4 hR r1 r2 r3 r4
  exact ⟨err, d, h1, h2, h3⟩

/-- `matchingError` succeeds at every energy. -/
theorem matching_total_fl {fl : ℝ → ℝ} {u mu M H σ τ R : ℝ} {W : Sec ℝ → ℝ → ℝ} {dmin dmax eps : Fl fl} {r : BuildResult (Fl fl)} {eta : ℕ → Fl fl → ℕ → Fl fl} {vs : Sec (Fl fl) → ℕ → Fl fl}
    (hF : FlFit M H u mu σ τ R W dmin dmax eps r.sectors eta vs) (hm : r.matchIndex < r.sectors.length)
    (th : Fl fl → Fl fl → Fl fl → Y (Fl fl) → Fl fl) (pru : Fl fl → Fl fl → Fl fl → Fl fl → Y (Fl fl) → Y (Fl fl) → Fl fl) (pi : Fl fl) (useH : Bool) (left right : Y (Fl fl)) :
    ∃ me : Fl fl → Fl fl × Fl fl × Fl fl, ∀ E, (constructGen eps eta th pru vs dmin dmax r).matchingError pi E left right useH = .ok (me E) := by
  have hf := hF.fit
  set P := constructGen eps eta th pru vs dmin dmax r with hP
  obtain ⟨v0M, hsecs⟩ : ∃ v0, P.secs = r.sectors.map (fun s => sectorGen eps eta th pru (vs s) v0 s) := ⟨_, rfl⟩
  have hlen : r.matchIndex < P.secs.length := by rw [hsecs, List.length_map]; exact hm
  have hmi : P.matchIndex = r.matchIndex := rfl
  set s := r.sectors[r.matchIndex] with hsd
  have hsm : s ∈ r.sectors := List.getElem_mem hm
  have hsm' : realSec s ∈ realMesh r.sectors := List.mem_map_of_mem hsm
  have hget : P.secs[P.matchIndex]? = some (sectorGen eps eta th pru (vs s) v0M s) := by
    rw [hmi, List.getElem?_eq_getElem hlen]
    simp only [hsecs, List.getElem_map, hsd]
  have hmx : (sectorGen eps eta th pru (vs s) v0M s).max = s.max := rfl
  have bm : IsBoundary (bounds (realMesh r.sectors)) s.max.val := (boundary_of_mem hsm').2
  have ba : IsBoundary (bounds (realMesh r.sectors)) dmin.val := by
    rw [← hf.mesh.first]; exact (boundary_of_mem (List.getElem_mem _)).1
  have bb : IsBoundary (bounds (realMesh r.sectors)) dmax.val := by
    rw [← hf.mesh.last]; exact (boundary_of_mem (List.getElem_mem _)).2
  have hpm : P.dmin = dmin := rfl
  have hpM : P.dmax = dmax := rfl
  obtain ⟨l1, -, -, -, -, -, -, -, w1⟩ := walk_fl th pru pi useH hF ba bm
  obtain ⟨l2, -, -, -, -, -, -, -, w2⟩ := walk_fl th pru pi useH hF bb bm
  refine Classical.axiomOfChoice (r := fun E e => P.matchingError pi E left right useH = .ok e) (fun E => ?_)
  obtain ⟨θ1, g1⟩ := w1 E left
  obtain ⟨θ2, g2⟩ := w2 E right
  rw [← hP] at g1 g2
  unfold Prob.matchingError
  rw [hget]
  simp only [hmx, hpm, hpM]
  rw [g1, g2]
  simp only [Outcome.bind_ok, Outcome.pure_eq]
  exact ⟨_, rfl⟩

theorem absK_val {fl : ℝ → ℝ} (x : Fl fl) : (absK x).val = |x.val| := by
  unfold absK
  by_cases h : x.val < 0
  · simp [h, abs_of_neg h]
  · simp [h, abs_of_nonneg (not_lt.mp h)]

set_option maxHeartbeats 1600000 in
/-- **C125.** Newton's iteration in finite precision, from a start near an exact eigenvalue `λ`: with `κ = H^16 + ε` (`H^14 + ε` without `use_h`), if `C κ ≤ 1` and `|E - λ| ≤ 1/C`, `matchingError` succeeds at every
energy, the `m`-th iterate is within `2^(-2^m) + C κ` of `λ`, no iterate moves away from `λ` by more than `C κ`, and what `newtonIteration` returns is within `C (tol² + κ) + 2^(-2^20)` of `λ`. -/
theorem C125_newton_converges (M : ℝ) (hM : 1 ≤ M) : ∃ C : ℝ, 1 ≤ C ∧ ∀ (fl : ℝ → ℝ) [CInt (Fl fl)] (H u mu σ τ ε : ℝ) (W : Sec ℝ → ℝ → ℝ) (dmin dmax eps : Fl fl) (r : BuildResult (Fl fl))
    (eta : ℕ → Fl fl → ℕ → Fl fl) (vs : Sec (Fl fl) → ℕ → Fl fl) (th : Fl fl → Fl fl → Fl fl → Y (Fl fl) → Fl fl) (pru : Fl fl → Fl fl → Fl fl → Fl fl → Y (Fl fl) → Y (Fl fl) → Fl fl)
    (pi : Fl fl) (useH : Bool) (left right : Y (Fl fl)) (sL sR lam : ℝ),
    FlFit M H u mu σ τ (6 * M * H) W dmin dmax eps r.sectors eta vs → 0 ≤ σ → τ + r.sectors.length * (u + σ) ≤ ε → dmax.val - dmin.val ≤ M → 1 / M ≤ dmax.val - dmin.val → |lam| + 1 ≤ M →
    r.matchIndex < r.sectors.length → BoundaryFl mu sL sR left right → left.yE.val = 0 → left.dyE.val = 0 → right.yE.val = 0 → right.dyE.val = 0 →
    IsEigenvalue W (realMesh r.sectors) dmin.val dmax.val (left.y.val, left.dy.val) (right.y.val, right.dy.val) lam →
    C * (H ^ (if useH then 16 else 14) + ε) ≤ 1 →
    ∃ me : Fl fl → Fl fl × Fl fl × Fl fl, (∀ E, (constructGen eps eta th pru vs dmin dmax r).matchingError pi E left right useH = .ok (me E)) ∧
      ∀ E : Fl fl, |E.val - lam| ≤ 1 / C →
        (∀ m, |(iterate me E m).val - lam| ≤ (1 / 2) ^ 2 ^ m + C * (H ^ (if useH then 16 else 14) + ε)) ∧
        (∀ m, |(iterate me E m).val - lam| ≤ |E.val - lam| + C * (H ^ (if useH then 16 else 14) + ε)) ∧
        ∀ (pi' tol E' : Fl fl) (idx : ℤ), newton me pi' tol E = .ok (idx, E') →
          |E'.val - lam| ≤ C * (tol.val ^ 2 + H ^ (if useH then 16 else 14) + ε) + (1 / 2) ^ 2 ^ 20 := by
  obtain ⟨C, hC, key⟩ := newton_fl M hM
  have C0 : 0 < C := by linarith
  refine ⟨8 * C ^ 4 + 8 * C ^ 2, by nlinarith [pow_nonneg C0.le 4], ?_⟩
  intro fl _ H u mu σ τ ε W dmin dmax eps r eta vs th pru pi useH left right sL sR lam hF hσ0 hε hd hd' hlam hm hB l3 l4 r3 r4 heig hκ1
  have hf := hF.fit
  obtain ⟨me, hme⟩ := matching_total_fl hF hm th pru pi useH left right
  refine ⟨me, hme, ?_⟩
  intro E hE
  change (8 * C ^ 4 + 8 * C ^ 2) * (H ^ ord useH + ε) ≤ 1 at hκ1
  have hu0 := hF.u0
  have hε0 : 0 ≤ ε := by
    have h1 : 0 ≤ τ := (hF.coeff _ (List.getElem_mem hm)).nonneg
    have h2 : 0 ≤ (r.sectors.length : ℝ) * (u + σ) := by positivity
    linarith
  have hH0 := fit_pos hf
  set κ := H ^ ord useH + ε with hκ
  have κ0 : 0 ≤ κ := by positivity
  have c2 : C ≤ C ^ 2 := by nlinarith
  have c4 : 0 ≤ C ^ 4 := by positivity
  have hκ8 : 8 * C ^ 2 * κ ≤ 1 := le_trans (mul_le_mul_of_nonneg_right (by linarith) κ0) hκ1
  have hκC : C * κ ≤ 1 := le_trans (mul_le_mul_of_nonneg_right (by nlinarith) κ0) hκ1
  have pe1 : pe (valY left) = 0 := by simp [pe, valY, l3, l4]
  have pe2 : pe (valY right) = 0 := by simp [pe, valY, r3, r4]
  have step2 : ∀ F : Fl fl, |F.val - lam| ≤ 1 / C → |(F - (me F).1 / (me F).2.1).val - lam| ≤ C * (|F.val - lam| ^ 2 + κ) ∧
      |F.val - ((me F).1 / (me F).2.1).val - lam| ≤ C * (|F.val - lam| ^ 2 + κ) := by
    intro F hFl
    have h1C : 1 / C ≤ 1 := by rw [div_le_one C0]; exact hC
    have hFM : |F.val| ≤ M := by
      have := abs_sub_abs_le_abs_sub F.val lam
      linarith
    obtain ⟨err, e1, -, e2, e3⟩ := key fl H u mu σ τ ε W dmin dmax eps r eta vs th pru pi F useH left right sL sR lam hF hσ0 hε hd hd' hFM (by linarith) hm hB.left hB.right hB.posL hB.posR pe1 pe2
      hB.muL hB.muR hB.muLR heig hκC hFl
    rw [hme F] at e1
    cases e1
    rw [sq_abs]; exact ⟨e2, e3⟩
  have step := fun F h => (step2 F h).1
  have h0 : |(iterate me E 0).val - lam| ≤ 1 / (4 * C) := by
    refine hE.trans (one_div_le_one_div_of_le (by positivity) ?_)
    nlinarith
  have seq := newton_seq hC κ0 (x := fun m => |(iterate me E m).val - lam|) (fun m hx => step _ hx) (fun _ => abs_nonneg _) h0 hκ8
  have conv : ∀ m, |(iterate me E m).val - lam| ≤ (1 / 2) ^ 2 ^ m + (8 * C ^ 4 + 8 * C ^ 2) * κ := by
    intro m
    refine ((seq m).1).trans (add_le_add ?_ (mul_le_mul_of_nonneg_right (by nlinarith) κ0))
    have : (0 : ℝ) < (1 / 2) ^ 2 ^ m := by positivity
    rw [div_le_iff₀ (by positivity)]
    nlinarith
  have stay : ∀ m, |(iterate me E m).val - lam| ≤ |E.val - lam| + (8 * C ^ 4 + 8 * C ^ 2) * κ := by
    intro m
    refine (newton_stay hC (x := fun m => |(iterate me E m).val - lam|) (fun m hx => step _ hx) (fun _ => abs_nonneg _) (fun m => (seq m).2) κ0 m).trans
      (add_le_add le_rfl (mul_le_mul_of_nonneg_right (by nlinarith) κ0))
  refine ⟨conv, stay, fun pi' tol E' idx hnew => ?_⟩
  obtain ⟨m, m1, m20, e1, -, m5, -⟩ := C24_newton me pi' tol E idx E' hnew
  rw [e1]
  have t0 : (0 : ℝ) ≤ (1 / 2) ^ 2 ^ 20 := pow_nonneg (by norm_num) _
  have a8 : tol.val ^ 2 + H ^ (if useH then 16 else 14) + ε = tol.val ^ 2 + κ := by rw [hκ]; unfold ord; ring
  rw [a8]
  rcases Nat.lt_or_ge m 20 with hm20 | hm20
  · -- stopped by the tolerance
    have h := m5 hm20
    obtain ⟨k, rfl⟩ : ∃ k, m = k + 1 := ⟨m - 1, by omega⟩
    rw [Nat.add_sub_cancel] at h
    unfold correction at h
    rw [Fl.lt_def, absK_val, decide_eq_false_iff_not, not_lt] at h
    set F := iterate me E k with hFd
    have hFs := (seq k).2
    have hFC : |F.val - lam| ≤ 1 / C := hFs.trans (one_div_le_one_div_of_le C0 (by linarith))
    have s1 := (step2 F hFC).1
    have s2 := (step2 F hFC).2
    set x := |F.val - lam| with hx
    have x0 : 0 ≤ x := abs_nonneg _
    set a := ((me F).1 / (me F).2.1).val with ha
    -- the distance before the last step
    have a1 : x ≤ tol.val + C * (x ^ 2 + κ) := by
      have : F.val - lam = a + (F.val - a - lam) := by ring
      rw [hx, this]
      exact (abs_add_le _ _).trans (add_le_add h (by rw [← this]; exact s2))
    have a2 : C * x ^ 2 ≤ x / 2 := by
      have : C * x ≤ 1 / 2 := by
        have := mul_le_mul_of_nonneg_left hFs C0.le
        rw [show C * (1 / (2 * C)) = 1 / 2 by field_simp] at this
        exact this
      nlinarith
    have a3 : x ≤ 2 * (tol.val + C * κ) := by linarith [mul_add C (x ^ 2) κ]
    have a4 : x ^ 2 ≤ 8 * tol.val ^ 2 + 8 * (C * κ) ^ 2 := by
      have := pow_le_pow_left₀ x0 a3 2
      nlinarith [sq_nonneg (tol.val - C * κ)]
    have a5 : (C * κ) ^ 2 ≤ C ^ 2 * κ := by
      have : κ ≤ 1 := by nlinarith
      have : C ^ 2 * (κ * κ) ≤ C ^ 2 * (1 * κ) := mul_le_mul_of_nonneg_left (mul_le_mul_of_nonneg_right this κ0) (by positivity)
      nlinarith
    show |(F - (me F).1 / (me F).2.1).val - lam| ≤ _
    have a6 : C * (x ^ 2 + κ) ≤ C * (8 * tol.val ^ 2 + 8 * (C ^ 2 * κ) + κ) := mul_le_mul_of_nonneg_left (by linarith) C0.le
    have c3 : C ^ 3 ≤ C ^ 4 := pow_le_pow_right₀ hC (by norm_num)
    have a7 : C * (8 * tol.val ^ 2 + 8 * (C ^ 2 * κ) + κ) ≤ (8 * C ^ 4 + 8 * C ^ 2) * (tol.val ^ 2 + κ) := by
      have b1 : 8 * C * tol.val ^ 2 ≤ (8 * C ^ 4 + 8 * C ^ 2) * tol.val ^ 2 := mul_le_mul_of_nonneg_right (by nlinarith) (sq_nonneg _)
      have b2 : (8 * C ^ 3 + C) * κ ≤ (8 * C ^ 4 + 8 * C ^ 2) * κ := mul_le_mul_of_nonneg_right (by nlinarith) κ0
      nlinarith
    linarith
  · -- all twenty iterations
    obtain rfl : m = 20 := by omega
    refine (conv 20).trans ?_
    have : (8 * C ^ 4 + 8 * C ^ 2) * κ ≤ (8 * C ^ 4 + 8 * C ^ 2) * (tol.val ^ 2 + κ) :=
      mul_le_mul_of_nonneg_left (le_add_of_nonneg_left (sq_nonneg _)) (by positivity)
    linarith

set_option maxHeartbeats 800000 in
/-- The computed derivative of the matching error is bounded. -/
theorem matching_dbound_fl (M : ℝ) (hM : 1 ≤ M) : ∃ C : ℝ, 1 ≤ C ∧ ∀ (fl : ℝ → ℝ) (H u mu σ τ ε : ℝ) (W : Sec ℝ → ℝ → ℝ) (dmin dmax eps : Fl fl) (r : BuildResult (Fl fl))
    (eta : ℕ → Fl fl → ℕ → Fl fl) (vs : Sec (Fl fl) → ℕ → Fl fl) (th : Fl fl → Fl fl → Fl fl → Y (Fl fl) → Fl fl) (pru : Fl fl → Fl fl → Fl fl → Fl fl → Y (Fl fl) → Y (Fl fl) → Fl fl)
    (pi E : Fl fl) (useH : Bool) (left right : Y (Fl fl)) (sL sR : ℝ),
    FlFit M H u mu σ τ (6 * M * H) W dmin dmax eps r.sectors eta vs → 0 ≤ σ → τ + r.sectors.length * (u + σ) ≤ ε → H ^ ord useH + ε ≤ 1 / 8 → dmax.val - dmin.val ≤ M → |E.val| ≤ M →
    r.matchIndex < r.sectors.length → sL = sz (pr (valY left)) → sR = sz (pr (valY right)) → pe (valY left) = 0 → pe (valY right) = 0 → mu ≤ sL → mu ≤ sR → mu ≤ sL * sR →
    ∃ err, (constructGen eps eta th pru vs dmin dmax r).matchingError pi E left right useH = .ok err ∧ |err.2.1.val| ≤ C * (sL * sR) := by
  obtain ⟨C, hC, flk⟩ := matching_dfl M hM
  refine ⟨2 * C, by linarith, ?_⟩
  intro fl H u mu σ τ ε W dmin dmax eps r eta vs th pru pi E useH left right sL sR hF hσ0 hε κ8 hd hE hm eSL eSR pe1 pe2 muL muR muLR
  have hf := hF.fit
  have eL0 : (valY left).yE = 0 := congrArg Prod.fst pe1
  have eL1 : (valY left).dyE = 0 := congrArg Prod.snd pe1
  have eR0 : (valY right).yE = 0 := congrArg Prod.fst pe2
  have eR1 : (valY right).dyE = 0 := congrArg Prod.snd pe2
  have ok := fit_okMesh hf hE
  have hab := (chn_range ok.chn ok.pos).1
  have aI : dmin.val ∈ Set.Icc dmin.val dmax.val := ⟨le_rfl, hab⟩
  have bI : dmax.val ∈ Set.Icc dmin.val dmax.val := ⟨hab, le_rfl⟩
  have fam : ∀ x0 ∈ Set.Icc dmin.val dmax.val, ∀ v : ℝ × ℝ, ∃ g dg : ℝ → ℝ → ℝ, ∀ F, SolvesMesh W F (realMesh r.sectors) (g F) (dg F) ∧ g F x0 = v.1 ∧ dg F x0 = v.2 := by
    intro x0 hx0 v
    have : ∀ F : ℝ, ∃ p : (ℝ → ℝ) × (ℝ → ℝ), SolvesMesh W F (realMesh r.sectors) p.1 p.2 ∧ p.1 x0 = v.1 ∧ p.2 x0 = v.2 := fun F => by
      obtain ⟨y, dy, h1, h2, h3⟩ := mesh_exists_at (okMesh_any hf hM F) hx0 v
      exact ⟨(y, dy), h1, h2, h3⟩
    choose p hp using this
    exact ⟨fun F => (p F).1, fun F => (p F).2, hp⟩
  obtain ⟨fL, dfL, hL⟩ := fam dmin.val aI (pr (valY left))
  obtain ⟨fR, dfR, hR⟩ := fam dmax.val bI (pr (valY right))
  have cst : ∀ {g : ℝ → ℝ} {v e : ℝ}, (∀ F, g F = v) → e = 0 → HasDerivAt g e E.val := by
    intro g v e h1 h2
    have : g = fun _ => v := funext h1
    rw [this, h2]; exact hasDerivAt_const _ _
  have d1 : HasDerivAt (fun F => fL F dmin.val) (valY left).yE E.val := cst (fun F => (hL F).2.1) eL0
  have d2 : HasDerivAt (fun F => dfL F dmin.val) (valY left).dyE E.val := cst (fun F => (hL F).2.2) eL1
  have d3 : HasDerivAt (fun F => fR F dmax.val) (valY right).yE E.val := cst (fun F => (hR F).2.1) eR0
  have d4 : HasDerivAt (fun F => dfR F dmax.val) (valY right).dyE E.val := cst (fun F => (hR F).2.2) eR1
  obtain ⟨err, d, k1, -, -, k4, k5⟩ := flk fl H u mu σ τ ε W dmin dmax eps r eta vs th pru pi E useH left right sL sR sL sR fL dfL fR dfR hF hσ0 hε κ8 hd hE hm eSL eSR
    (by rw [pe1]; simp [sz]) (by rw [pe2]; simp [sz]) muL muR muLR (fun F => (hL F).1) (hL _).2.1 (hL _).2.2 d1 d2 (fun F => (hR F).1) (hR _).2.1 (hR _).2.2 d3 d4
  refine ⟨err, k1, ?_⟩
  have hN0 : 0 ≤ C * (sL * sR) := (abs_nonneg _).trans k5
  have h1 : C * (H ^ ord useH + ε) * (sL * sR) ≤ C * (sL * sR) := by
    have := mul_le_mul_of_nonneg_right (show H ^ ord useH + ε ≤ 1 by linarith) hN0
    linarith only [this, (by ring : C * (H ^ ord useH + ε) * (sL * sR) = (H ^ ord useH + ε) * (C * (sL * sR)))]
  have h2 := abs_add_le (err.2.1.val - d) d
  rw [sub_add_cancel] at h2
  linarith

set_option maxHeartbeats 1600000 in
/-- **C126** (soundness of the polished energies in finite precision). `κ = H^16 + ε` (`H^14 + ε` without `use_h`). Let Newton's iteration, computed in finite precision from any start, return `E'` after fewer than 20
evaluations, the last one at `E`, where the computed derivative of the matching error was not zero. If `C (tol + κ) ≤ 1`, there is an exact eigenvalue of the differential equation within `C (tol² + κ)` of `E'`. -/
theorem C126_newton_sound (M : ℝ) (hM : 1 ≤ M) : ∃ C : ℝ, 1 ≤ C ∧ ∀ (fl : ℝ → ℝ) [CInt (Fl fl)] (H u mu σ τ ε : ℝ) (W : Sec ℝ → ℝ → ℝ) (dmin dmax eps : Fl fl) (r : BuildResult (Fl fl))
    (eta : ℕ → Fl fl → ℕ → Fl fl) (vs : Sec (Fl fl) → ℕ → Fl fl) (th : Fl fl → Fl fl → Fl fl → Y (Fl fl) → Fl fl) (pru : Fl fl → Fl fl → Fl fl → Fl fl → Y (Fl fl) → Y (Fl fl) → Fl fl)
    (pi : Fl fl) (useH : Bool) (left right : Y (Fl fl)) (sL sR : ℝ),
    FlFit M H u mu σ τ (6 * M * H) W dmin dmax eps r.sectors eta vs → 0 ≤ σ → τ + r.sectors.length * (u + σ) ≤ ε → dmax.val - dmin.val ≤ M → 1 / M ≤ dmax.val - dmin.val →
    r.matchIndex < r.sectors.length → BoundaryFl mu sL sR left right → left.yE.val = 0 → left.dyE.val = 0 → right.yE.val = 0 → right.dyE.val = 0 →
    ∃ me : Fl fl → Fl fl × Fl fl × Fl fl, (∀ E, (constructGen eps eta th pru vs dmin dmax r).matchingError pi E left right useH = .ok (me E)) ∧
      ∀ (pi' tol E0 E E' : Fl fl) (idx : ℤ), newton me pi' tol E0 = .ok (idx, E') → (newtonLoop me tol 19 E0).2.2.length < 20 → (newtonLoop me tol 19 E0).2.2.getLast? = some E →
        |E.val| + 1 ≤ M → (me E).2.1.val ≠ 0 → C * (tol.val + H ^ (if useH then 16 else 14) + ε) ≤ 1 →
        ∃ lam, IsEigenvalue W (realMesh r.sectors) dmin.val dmax.val (left.y.val, left.dy.val) (right.y.val, right.dy.val) lam ∧
          |E'.val - lam| ≤ C * (tol.val ^ 2 + H ^ (if useH then 16 else 14) + ε) := by
  obtain ⟨C1, hC1, k1⟩ := C116_sound M hM
  obtain ⟨C2, hC2, k2⟩ := matching_dbound_fl M hM
  obtain ⟨C3, hC3, k3⟩ := newton_fl M hM
  -- the distance of `E` from the eigenvalue is at most `A (tol + κ)`
  obtain ⟨A, hA⟩ : ∃ A, A = C1 * (2 * C2) + C1 := ⟨_, rfl⟩
  have C12 : 1 ≤ C1 * C2 := one_le_mul_of_one_le_of_one_le hC1 hC2
  have A1 : 1 ≤ A := by linarith
  obtain ⟨B, hB⟩ : ∃ B, B = C3 * A := ⟨_, rfl⟩
  have B1 : 1 ≤ B := by rw [hB]; exact one_le_mul_of_one_le_of_one_le hC3 A1
  have cB : A ≤ B := by rw [hB]; exact le_mul_of_one_le_left (by linarith) hC3
  have cB3 : C3 ≤ B := by rw [hB]; exact le_mul_of_one_le_right (by linarith) A1
  obtain ⟨C, hC⟩ : ∃ C, C = 4 * (B * A) + 2 * B + 8 := ⟨_, rfl⟩
  have BA : A ≤ B * A := le_mul_of_one_le_left (by linarith) B1
  refine ⟨C, by linarith, ?_⟩
  intro fl _ H u mu σ τ ε W dmin dmax eps r eta vs th pru pi useH left right sL sR hF hσ0 hε hd hd' hm hBd l3 l4 r3 r4
  have hord : (if useH then 16 else 14) = ord useH := rfl
  rw [hord]
  have hf := hF.fit
  have hH0 := (fit_pos hf).le
  have hu0 := hF.u0
  have hτ0 : 0 ≤ τ := (hF.coeff _ (List.getElem_mem hm)).nonneg
  have hN1 : (1 : ℝ) ≤ r.sectors.length := by exact_mod_cast (show 0 < r.sectors.length by omega)
  have huε : u + σ ≤ r.sectors.length * (u + σ) := le_mul_of_one_le_left (by linarith) hN1
  have hε0 : 0 ≤ ε := by linarith
  obtain ⟨me, hme⟩ := matching_total_fl hF hm th pru pi useH left right
  refine ⟨me, hme, ?_⟩
  intro pi' tol E0 E E' idx hnew hlen hlast hE hd0 hκ
  obtain ⟨m, m1, m2, m3, m4, m5, -⟩ := C24_newton me pi' tol E0 idx E' hnew
  rw [m4] at hlen hlast
  rw [List.length_map, List.length_range] at hlen
  have hEm : iterate me E0 (m - 1) = E := by
    obtain ⟨m, rfl⟩ : ∃ m', m = m' + 1 := ⟨m - 1, by omega⟩
    rw [List.range_succ, List.map_append, List.map_singleton, List.getLast?_concat] at hlast
    simpa using hlast
  have hE' : E' = E - (me E).1 / (me E).2.1 := by
    rw [m3]
    obtain ⟨m, rfl⟩ : ∃ m', m = m' + 1 := ⟨m - 1, by omega⟩
    rw [Nat.add_sub_cancel] at hEm
    rw [iterate, hEm]
  have hstop : |((me E).1 / (me E).2.1).val| ≤ tol.val := by
    have h := m5 hlen
    unfold correction at h
    rwa [hEm, Fl.lt_def, absK_val, decide_eq_false_iff_not, not_lt] at h
  obtain ⟨t, ht⟩ : ∃ t, t = tol.val := ⟨_, rfl⟩
  rw [← ht] at hstop hκ ⊢
  have htol : 0 ≤ t := (abs_nonneg _).trans hstop
  obtain ⟨κ, hκd⟩ : ∃ κ, κ = H ^ ord useH + ε := ⟨_, rfl⟩
  have κ0 : 0 ≤ κ := by rw [hκd]; exact add_nonneg (pow_nonneg hH0 _) hε0
  have uκ : u ≤ κ := by rw [hκd]; linarith [pow_nonneg hH0 (ord useH)]
  have hκ : C * (t + κ) ≤ 1 := by rw [hκd, ← add_assoc]; exact hκ
  have tκ : 0 ≤ t + κ := by linarith
  have small : ∀ {D : ℝ}, D ≤ C → D * (t + κ) ≤ 1 := fun h => (mul_le_mul_of_nonneg_right h tκ).trans hκ
  have κ8 : κ ≤ 1 / 8 := by
    have := small (D := 8) (by nlinarith)
    linarith
  have hεκ : ε ≤ κ := by rw [hκd]; linarith [pow_nonneg hH0 (ord useH)]
  have hEM : |E.val| ≤ M := by linarith
  have pL : pe (valY left) = 0 := by simp [pe, valY, l3, l4]
  have pR : pe (valY right) = 0 := by simp [pe, valY, r3, r4]
  have mu1 : mu ≤ 1 := (hF.arith hσ0 (by linarith) (List.getElem_mem hm)).mu1
  -- the matching error at `E` is small
  obtain ⟨err, e1, e4⟩ := k2 fl H u mu σ τ ε W dmin dmax eps r eta vs th pru pi E useH left right sL sR hF hσ0 hε (by rw [← hκd]; exact κ8) hd hEM hm hBd.left hBd.right pL pR hBd.muL hBd.muR hBd.muLR
  rw [hme] at e1
  cases e1
  obtain ⟨S, hS⟩ : ∃ S, S = sL * sR := ⟨_, rfl⟩
  have S0 : 0 < S := by rw [hS]; exact mul_pos hBd.posL hBd.posR
  rw [← hS] at e4
  have hquo : |(me E).1.val / (me E).2.1.val| ≤ 2 * (t + κ) := by
    have h1 : |fl ((me E).1.val / (me E).2.1.val)| ≤ t := hstop
    obtain ⟨x, hx⟩ : ∃ x, x = (me E).1.val / (me E).2.1.val := ⟨_, rfl⟩
    rw [← hx] at h1 ⊢
    have h2 := hF.r.err x
    have h3 : |x| ≤ |fl x| + |fl x - x| := by
      have := abs_sub (fl x) (fl x - x)
      rwa [sub_sub_cancel] at this
    have h4 : u * max |x| mu ≤ u * (|x| + 1) := mul_le_mul_of_nonneg_left (max_le (by linarith [abs_nonneg x]) (by linarith [abs_nonneg x])) hu0
    have h5 : u * |x| ≤ 1 / 2 * |x| := mul_le_mul_of_nonneg_right (by linarith) (abs_nonneg x)
    linarith
  have herr : |(me E).1.val| ≤ 2 * C2 * (t + κ) * S := by
    rw [abs_div, div_le_iff₀ (abs_pos.mpr hd0)] at hquo
    refine hquo.trans ((mul_le_mul_of_nonneg_left e4 (by linarith)).trans (le_of_eq (by ring)))
  obtain ⟨err, f1, f2, -⟩ := k1 fl H u mu σ τ ε W dmin dmax eps r eta vs th pru pi useH left right sL sR (C1 * κ) hF hσ0 hε (by linarith) hd hd' hm hBd (by rw [hκd]; rfl) (by
    have h1 := small (D := C1) (by linarith)
    have h2 := mul_nonneg (show 0 ≤ C1 by linarith) htol
    linarith [mul_add C1 t κ])
  have f1 := f1 E hEM
  rw [hme] at f1
  have f3 : me E = err E := Outcome.ok.inj f1
  have f2 := f2 E hEM
  rw [← f3, ← hS] at f2
  have hη : C1 * (|(me E).1.val| / S) + C1 * κ ≤ A * (t + κ) := by
    have h1 : |(me E).1.val| / S ≤ 2 * C2 * (t + κ) := by
      rw [div_le_iff₀ S0]; exact herr
    have h2 := mul_le_mul_of_nonneg_left h1 (show 0 ≤ C1 by linarith)
    have h3 : C1 * κ ≤ C1 * (t + κ) := mul_le_mul_of_nonneg_left (by linarith) (by linarith)
    rw [hA]
    linarith only [h2, h3, (by ring : (C1 * (2 * C2) + C1) * (t + κ) = C1 * (2 * C2 * (t + κ)) + C1 * (t + κ))]
  have hAC : A ≤ C := by linarith
  obtain ⟨lam, g1, g2⟩ := f2 (hη.trans (small hAC))
  have hEl : |E.val - lam| ≤ A * (t + κ) := by rw [abs_sub_comm]; linarith
  have hEl1 : |E.val - lam| ≤ 1 := hEl.trans (small hAC)
  have hlam : |lam| ≤ M := by
    have := abs_sub_abs_le_abs_sub lam E.val
    rw [abs_sub_comm] at this
    linarith
  refine ⟨lam, g1, ?_⟩
  have hC3E : |E.val - lam| ≤ 1 / C3 := by
    rw [le_div_iff₀ (by linarith)]
    have h1 := mul_le_mul_of_nonneg_left hEl (show 0 ≤ C3 by linarith)
    rw [← mul_assoc, ← hB] at h1
    have := small (D := B) (by nlinarith)
    linarith
  obtain ⟨err', e1, -, e3, -⟩ := k3 fl H u mu σ τ ε W dmin dmax eps r eta vs th pru pi E useH left right sL sR lam hF hσ0 hε hd hd' hEM hlam hm hBd.left hBd.right hBd.posL hBd.posR pL pR
    hBd.muL hBd.muR hBd.muLR g1 (by
      rw [← hκd]
      have h1 : C3 * κ ≤ C3 * (t + κ) := mul_le_mul_of_nonneg_left (by linarith) (by linarith)
      have := small (D := C3) (by nlinarith)
      linarith) hC3E
  rw [hme] at e1
  cases e1
  rw [hE']
  rw [← hκd] at e3
  refine e3.trans ?_
  have q1 : (E.val - lam) ^ 2 ≤ (A * (t + κ)) ^ 2 := sq_le_sq' (by linarith [(abs_le.mp hEl).1]) (abs_le.mp hEl).2
  have q2 : (A * (t + κ)) ^ 2 ≤ 2 * A ^ 2 * (t ^ 2 + κ ^ 2) := by
    have := mul_nonneg (sq_nonneg A) (sq_nonneg (t - κ))
    have e : (A * (t + κ)) ^ 2 + A ^ 2 * (t - κ) ^ 2 = 2 * A ^ 2 * (t ^ 2 + κ ^ 2) := by ring
    linarith
  have q3 : κ ^ 2 ≤ κ := by nlinarith
  have q4 : C3 * (E.val - lam) ^ 2 ≤ C3 * (2 * A ^ 2 * (t ^ 2 + κ)) := by
    refine mul_le_mul_of_nonneg_left ?_ (by linarith)
    have := mul_le_mul_of_nonneg_left (show t ^ 2 + κ ^ 2 ≤ t ^ 2 + κ by linarith) (show 0 ≤ 2 * A ^ 2 by positivity)
    linarith
  have e1 : C3 * (2 * A ^ 2 * (t ^ 2 + κ)) = 2 * (B * A) * (t ^ 2 + κ) := by rw [hB]; ring
  have q5 : C3 * κ ≤ B * (t ^ 2 + κ) := mul_le_mul cB3 (by have := sq_nonneg t; linarith) κ0 (by linarith)
  have e2 : C3 * ((E.val - lam) ^ 2 + κ) = C3 * (E.val - lam) ^ 2 + C3 * κ := by ring
  have q6 : (2 * (B * A) + B) * (t ^ 2 + κ) ≤ C * (t ^ 2 + κ) := mul_le_mul_of_nonneg_right (by nlinarith) (by have := sq_nonneg t; linarith)
  have e3 : (2 * (B * A) + B) * (t ^ 2 + κ) = 2 * (B * A) * (t ^ 2 + κ) + B * (t ^ 2 + κ) := by ring
  have e4 : C * (t ^ 2 + H ^ ord useH + ε) = C * (t ^ 2 + κ) := by rw [hκd]; ring
  rw [e4]
  linarith only [q4, e1, q5, e2, q6, e3]

/-- **C125.** `eigenvalueError` in finite precision (Newton with `use_h = false`, starting from a computed eigenvalue `E`) returns the true error `|E - λ|` up to `C (tol² + H^14 + ε) + 2^(-2^20)`. -/
theorem C125_error_estimate (M : ℝ) (hM : 1 ≤ M) : ∃ C : ℝ, 1 ≤ C ∧ ∀ (fl : ℝ → ℝ) [CInt (Fl fl)] (H u mu σ τ ε : ℝ) (W : Sec ℝ → ℝ → ℝ) (dmin dmax eps : Fl fl) (r : BuildResult (Fl fl))
    (eta : ℕ → Fl fl → ℕ → Fl fl) (vs : Sec (Fl fl) → ℕ → Fl fl) (th : Fl fl → Fl fl → Fl fl → Y (Fl fl) → Fl fl) (pru : Fl fl → Fl fl → Fl fl → Fl fl → Y (Fl fl) → Y (Fl fl) → Fl fl)
    (pi : Fl fl) (left right : Y (Fl fl)) (sL sR lam : ℝ),
    FlFit M H u mu σ τ (6 * M * H) W dmin dmax eps r.sectors eta vs → 0 ≤ σ → τ + r.sectors.length * (u + σ) ≤ ε → dmax.val - dmin.val ≤ M → 1 / M ≤ dmax.val - dmin.val → |lam| + 1 ≤ M →
    r.matchIndex < r.sectors.length → BoundaryFl mu sL sR left right → left.yE.val = 0 → left.dyE.val = 0 → right.yE.val = 0 → right.dyE.val = 0 →
    IsEigenvalue W (realMesh r.sectors) dmin.val dmax.val (left.y.val, left.dy.val) (right.y.val, right.dy.val) lam →
    C * (H ^ 14 + ε) ≤ 1 →
    ∃ me : Fl fl → Fl fl × Fl fl × Fl fl, (∀ E, (constructGen eps eta th pru vs dmin dmax r).matchingError pi E left right false = .ok (me E)) ∧
      ∀ E pi' tol est : Fl fl, |E.val - lam| ≤ 1 / C → eigenvalueError me pi' tol E = .ok est →
        |est.val - abs (E.val - lam)| ≤ C * (tol.val ^ 2 + H ^ 14 + ε) + (1 / 2) ^ 2 ^ 20 := by
  obtain ⟨C, hC, key⟩ := C125_newton_converges M hM
  refine ⟨C + 8, by linarith, ?_⟩
  intro fl _ H u mu σ τ ε W dmin dmax eps r eta vs th pru pi left right sL sR lam hF hσ0 hε hd hd' hlam hm hB l3 l4 r3 r4 heig hκ
  have hf := hF.fit
  have hH0 := (fit_pos hf).le
  have hu0 := hF.u0
  have hτ0 : 0 ≤ τ := (hF.coeff _ (List.getElem_mem hm)).nonneg
  have hN1 : (1 : ℝ) ≤ r.sectors.length := by exact_mod_cast (show 0 < r.sectors.length by omega)
  have huε : u + σ ≤ r.sectors.length * (u + σ) := le_mul_of_one_le_left (by linarith) hN1
  have hε0 : 0 ≤ ε := by linarith
  have hH14 : 0 ≤ H ^ 14 := pow_nonneg hH0 _
  obtain ⟨κ, hκd⟩ : ∃ κ, κ = H ^ 14 + ε := ⟨_, rfl⟩
  have κ0 : 0 ≤ κ := by linarith
  have hκC : C * κ ≤ 1 := by rw [← hκd] at hκ; linarith [add_mul C 8 κ]
  obtain ⟨me, h1, h2⟩ := key fl H u mu σ τ ε W dmin dmax eps r eta vs th pru pi false left right sL sR lam hF hσ0 hε hd hd' hlam hm hB l3 l4 r3 r4 heig (by rw [hκd] at hκC; exact hκC)
  refine ⟨me, h1, fun E pi' tol est hE hest => ?_⟩
  have hEC : |E.val - lam| ≤ 1 / C := hE.trans (one_div_le_one_div_of_le (by linarith) (by linarith))
  have hE1 : |E.val - lam| ≤ 1 := hEC.trans (by rw [div_le_one (by linarith)]; exact hC)
  obtain ⟨-, h3, h4⟩ := h2 E hEC
  unfold eigenvalueError at hest
  obtain ⟨⟨idx, E'⟩, hn, hp⟩ := Outcome.bind_eq_ok.mp hest
  have h5 := h4 pi' tol E' idx hn
  obtain ⟨m, -, -, m3, -⟩ := C24_newton me pi' tol E idx E' hn
  have h6 : |E'.val - lam| ≤ 2 := by
    have := h3 m
    rw [← m3] at this
    have h7 : C * (H ^ (if false = true then 16 else 14) + ε) = C * κ := by rw [hκd]; rfl
    rw [h7] at this
    linarith
  have h5 : |E'.val - lam| ≤ C * (tol.val ^ 2 + H ^ 14 + ε) + (1 / 2) ^ 2 ^ 20 := h5
  have hp : absK (E - E') = est := Outcome.ok.inj hp
  rw [← hp, absK_val, Fl.sub_val]
  have mu1 : mu ≤ 1 := (hF.arith hσ0 (by rw [← hκd] at hκ; linarith [add_mul C 8 κ, mul_nonneg (show 0 ≤ C by linarith) κ0]) (List.getElem_mem hm)).mu1
  have h8 : |E.val - E'.val| ≤ 3 := by
    have := abs_sub (E.val - lam) (E'.val - lam)
    rw [sub_sub_sub_cancel_right] at this
    linarith
  have h9 := fl_round hF.r hu0 h8 (by linarith)
  have ha := abs_abs_sub_abs_le_abs_sub (fl (E.val - E'.val)) (E.val - lam)
  have hb := abs_sub (fl (E.val - E'.val) - (E.val - E'.val)) (E'.val - lam)
  rw [show fl (E.val - E'.val) - (E.val - E'.val) - (E'.val - lam) = fl (E.val - E'.val) - (E.val - lam) by ring] at hb
  have hc : (C + 8) * (tol.val ^ 2 + H ^ 14 + ε) = C * (tol.val ^ 2 + H ^ 14 + ε) + 8 * tol.val ^ 2 + 8 * H ^ 14 + 8 * ε := by ring
  rw [hc]
  have := sq_nonneg tol.val
  linarith only [h5, h9, ha, hb, this, hH14, huε, hε, hσ0, hτ0, hu0, hε0]

/-- C125: all the hypotheses hold together for an IEEE type, `V = 0` and the eigenvalue `3/2`. -/
example (tol : ℝ) : ∃ C : ℝ, 1 ≤ C ∧ ∃ (p : ℕ) (H u ε : ℝ) (r : BuildResult (Fl (rne p (1 - 2 * p)))) (ci : CInt (Fl (rne p (1 - 2 * p)))) (me : Fl (rne p (1 - 2 * p)) → Fl (rne p (1 - 2 * p)) × Fl (rne p (1 - 2 * p)) × Fl (rne p (1 - 2 * p)))
    (idx : ℤ) (E' : Fl (rne p (1 - 2 * p))), 0 < u ∧ C * (H ^ 16 + ε) ≤ 1 / 2 ∧
    (∀ E, (constructGen 0 (fun _ Z i => ⟨Eta.eta i Z.val⟩) (fun _ _ _ _ => 0) (fun _ _ _ _ _ _ => 0) (fun _ _ => 0) 0 ⟨boxB⟩ r).matchingError 0 E ⟨0, 1, 0, 0⟩ ⟨0, 1, 0, 0⟩ true = .ok (me E)) ∧
    newton me 0 ⟨tol⟩ ⟨3 / 2 + 1 / C⟩ = .ok (idx, E') ∧ |E'.val - 3 / 2| ≤ C * (tol ^ 2 + H ^ 16 + ε) + (1 / 2) ^ 2 ^ 20 := by
  obtain ⟨C, hC, key⟩ := C125_newton_converges 30 (by norm_num)
  obtain ⟨p, H, u, ε, r, hp, u0, u8, hF, h1, h2, h3, h4, h5⟩ := fl_box hC
  have hB := boxB_range
  have hM : BoundaryFl (fl := rne p (1 - 2 * p)) u 1 1 ⟨0, 1, 0, 0⟩ ⟨0, 1, 0, 0⟩ :=
    ⟨by simp, by simp, one_pos, one_pos, by linarith, by linarith, by linarith⟩
  have hev := h5 0
  have e0 : (3 / 2 * (((0 : ℕ) : ℝ) + 1) ^ 2) = 3 / 2 := by norm_num
  rw [e0] at hev
  have c0 : 0 < 1 / C := by positivity
  let ci : CInt (Fl (rne p (1 - 2 * p))) := ⟨fun _ => some 0, fun _ => some 0, fun _ => some 0⟩
  obtain ⟨me, k1, k2⟩ := key _ H u u 0 0 ε _ _ _ _ r _ _ (fun _ _ _ _ => 0) (fun _ _ _ _ _ _ => 0) 0 true _ _ 1 1 (3 / 2) hF le_rfl h1 (by show boxB - 0 ≤ 30; linarith)
    (by show 1 / 30 ≤ boxB - 0; linarith) (by norm_num [abs_of_pos]) h4 hM rfl rfl rfl rfl hev (by show C * (H ^ 16 + ε) ≤ 1; linarith)
  obtain ⟨-, -, k3⟩ := k2 ⟨3 / 2 + 1 / C⟩ (by show |3 / 2 + 1 / C - 3 / 2| ≤ 1 / C; rw [add_sub_cancel_left, abs_of_pos c0])
  exact ⟨C, hC, p, H, u, ε, r, ci, me, _, _, u0, h3, k1, rfl, k3 0 ⟨tol⟩ _ _ rfl⟩

/-- C126: Newton's iteration, started at the eigenvalue `3/2` of an IEEE problem with the tolerance `C (H^16 + ε)`, stops after one evaluation, and the hypotheses hold. -/
example : ∃ C : ℝ, 1 ≤ C ∧ ∃ (p : ℕ) (H u ε tol : ℝ) (r : BuildResult (Fl (rne p (1 - 2 * p)))) (ci : CInt (Fl (rne p (1 - 2 * p)))) (me : Fl (rne p (1 - 2 * p)) → Fl (rne p (1 - 2 * p)) × Fl (rne p (1 - 2 * p)) × Fl (rne p (1 - 2 * p)))
    (idx : ℤ) (E' : Fl (rne p (1 - 2 * p))) (lam : ℝ), 0 < u ∧
    (∀ E, (constructGen 0 (fun _ Z i => ⟨Eta.eta i Z.val⟩) (fun _ _ _ _ => 0) (fun _ _ _ _ _ _ => 0) (fun _ _ => 0) 0 ⟨boxB⟩ r).matchingError 0 E ⟨0, 1, 0, 0⟩ ⟨0, 1, 0, 0⟩ true = .ok (me E)) ∧
    newton me 0 ⟨tol⟩ ⟨3 / 2⟩ = .ok (idx, E') ∧ (newtonLoop me ⟨tol⟩ 19 ⟨3 / 2⟩).2.2.length < 20 ∧
    IsEigenvalue (fun _ _ => 0) (realMesh r.sectors) 0 boxB (0, 1) (0, 1) lam ∧ |E'.val - lam| ≤ C * (tol ^ 2 + H ^ 16 + ε) ∧ C * (tol + H ^ 16 + ε) ≤ 1 := by
  obtain ⟨C, hC, key⟩ := C126_newton_sound 30 (by norm_num)
  obtain ⟨C', hC', step⟩ := newton_fl 30 (by norm_num)
  have hCC : 1 ≤ C * (C' + 1) := one_le_mul_of_one_le_of_one_le hC (by linarith)
  obtain ⟨p, H, u, ε, r, hp, u0, u8, hF, h1, h2, h3, h4, h5⟩ := fl_box hCC
  have hB := boxB_range
  have hM : BoundaryFl (fl := rne p (1 - 2 * p)) u 1 1 ⟨0, 1, 0, 0⟩ ⟨0, 1, 0, 0⟩ :=
    ⟨by simp, by simp, one_pos, one_pos, by linarith, by linarith, by linarith⟩
  have hev := h5 0
  have e0 : (3 / 2 * (((0 : ℕ) : ℝ) + 1) ^ 2) = 3 / 2 := by norm_num
  rw [e0] at hev
  let ci : CInt (Fl (rne p (1 - 2 * p))) := ⟨fun _ => some 0, fun _ => some 0, fun _ => some 0⟩
  obtain ⟨κ, hκ⟩ : ∃ κ, κ = H ^ 16 + ε := ⟨_, rfl⟩
  have ε0 : 0 ≤ ε := by
    have : 0 ≤ 0 + (r.sectors.length : ℝ) * (u + 0) := by positivity
    linarith
  have κ0 : 0 ≤ κ := by rw [hκ]; positivity
  rw [← hκ] at h3
  have hC'κ : C' * κ ≤ 1 := by
    have : C' ≤ C * (C' + 1) := by nlinarith
    have := mul_le_mul_of_nonneg_right this κ0
    linarith
  obtain ⟨me, k1, k2⟩ := key _ H u u 0 0 ε _ _ _ _ r _ _ (fun _ _ _ _ => 0) (fun _ _ _ _ _ _ => 0) 0 true _ _ 1 1 hF le_rfl h1 (by show boxB - 0 ≤ 30; linarith)
    (by show 1 / 30 ≤ boxB - 0; linarith) h4 hM rfl rfl rfl rfl
  obtain ⟨err, s1, s2, -, s3⟩ := step _ H u u 0 0 ε _ _ _ _ r _ _ (fun _ _ _ _ => 0) (fun _ _ _ _ _ _ => 0) 0 ⟨3 / 2⟩ true ⟨0, 1, 0, 0⟩ ⟨0, 1, 0, 0⟩ 1 1 (3 / 2) hF le_rfl h1 (by show boxB - 0 ≤ 30; linarith)
    (by show 1 / 30 ≤ boxB - 0; linarith) (by norm_num [abs_of_pos]) (by norm_num [abs_of_pos]) h4 hM.left hM.right hM.posL hM.posR (by simp [pe, valY]) (by simp [pe, valY]) hM.muL hM.muR hM.muLR hev
    (by show C' * (H ^ 16 + ε) ≤ 1; rw [← hκ]; exact hC'κ) (by simp; linarith)
  rw [k1] at s1
  cases s1
  have tolb : |((me ⟨3 / 2⟩).1 / (me ⟨3 / 2⟩).2.1).val| ≤ C' * κ := by
    have : |(3 / 2 : ℝ) - ((me ⟨3 / 2⟩).1 / (me ⟨3 / 2⟩).2.1).val - 3 / 2| ≤ C' * ((3 / 2 - 3 / 2) ^ 2 + (H ^ 16 + ε)) := s3
    rw [← hκ, sub_self, zero_pow two_ne_zero, zero_add, sub_sub, add_comm, ← sub_sub, sub_self, zero_sub, abs_neg] at this
    exact this
  have hd0 : (me ⟨3 / 2⟩).2.1.val ≠ 0 := by
    intro h
    rw [h, abs_zero, mul_zero] at s2
    linarith
  have hlt : CCmp.lt (⟨C' * κ⟩ : Fl (rne p (1 - 2 * p))) (absK ((me ⟨3 / 2⟩).1 / (me ⟨3 / 2⟩).2.1)) = false := by
    rw [Fl.lt_def, absK_val, decide_eq_false_iff_not, not_lt]; exact tolb
  have hloop : (newtonLoop me ⟨C' * κ⟩ 19 ⟨3 / 2⟩).2.2 = [⟨3 / 2⟩] := by
    unfold newtonLoop
    simp only [hlt, Bool.false_eq_true, if_false]
  have hfin : C * (C' * κ + H ^ 16 + ε) ≤ 1 := by
    rw [add_assoc, ← hκ]
    linarith only [h3, (by ring : C * (C' + 1) * κ = C * (C' * κ + κ))]
  obtain ⟨lam, g1, g2⟩ := k2 0 ⟨C' * κ⟩ ⟨3 / 2⟩ ⟨3 / 2⟩ _ _ rfl (by rw [hloop]; simp) (by rw [hloop]; rfl) (by norm_num [abs_of_pos]) hd0 hfin
  exact ⟨C, hC, p, H, u, ε, C' * κ, r, ci, me, _, _, lam, u0, k1, rfl, by rw [hloop]; simp, g1, g2, hfin⟩

/-- C123, C124: the hypotheses hold together for an IEEE type and `V = 0`, with the families of solutions through `(0, 1)` at the two ends. -/
example (E : ℝ) (hE : |E| ≤ 30) : ∃ C : ℝ, 1 ≤ C ∧ ∃ (p : ℕ) (H u ε : ℝ) (r : BuildResult (Fl (rne p (1 - 2 * p)))) (fL dfL fR dfR : ℝ → ℝ → ℝ)
    (res : Y (Fl (rne p (1 - 2 * p))) × Fl (rne p (1 - 2 * p))) (err : Fl (rne p (1 - 2 * p)) × Fl (rne p (1 - 2 * p)) × Fl (rne p (1 - 2 * p))) (yE d : ℝ), 0 < u ∧ C * (H ^ 16 + ε) ≤ 1 / 2 ∧
    (constructGen 0 (fun _ Z i => ⟨Eta.eta i Z.val⟩) (fun _ _ _ _ => 0) (fun _ _ _ _ _ _ => 0) (fun _ _ => 0) 0 ⟨boxB⟩ r).propagate 0 ⟨E⟩ ⟨0, 1, 0, 0⟩ 0 ⟨boxB⟩ true = .ok res ∧
    HasDerivAt (fun F => fL F boxB) yE E ∧ |res.1.yE.val - yE| ≤ C * (H ^ 16 + ε) * (0 + 1 + u) ∧
    (constructGen 0 (fun _ Z i => ⟨Eta.eta i Z.val⟩) (fun _ _ _ _ => 0) (fun _ _ _ _ _ _ => 0) (fun _ _ => 0) 0 ⟨boxB⟩ r).matchingError 0 ⟨E⟩ ⟨0, 1, 0, 0⟩ ⟨0, 1, 0, 0⟩ true = .ok err ∧
    HasDerivAt (fun F => dfL F 0 * fR F 0 - dfR F 0 * fL F 0) d E ∧ |err.2.1.val - d| ≤ C * (H ^ 16 + ε) * ((0 + 1) * (0 + 1)) := by
  obtain ⟨C1, hC1, k1⟩ := C123_energy_derivative 30 (by norm_num)
  obtain ⟨C2, hC2, k2⟩ := C124_matching_derivative 30 (by norm_num)
  have hC : 1 ≤ C1 + C2 + 4 := by linarith
  obtain ⟨p, H, u, ε, r, hp, u0, u8, hF, h1, h2, h3, h4, -⟩ := fl_box hC
  have hB := boxB_range
  have ε0 : 0 ≤ ε := by
    have : 0 ≤ 0 + (r.sectors.length : ℝ) * (u + 0) := by positivity
    linarith
  obtain ⟨κ, hκ⟩ : ∃ κ, κ = H ^ 16 + ε := ⟨_, rfl⟩
  have κ0 : 0 ≤ κ := by rw [hκ]; positivity
  rw [← hκ] at h3
  have hf := hF.fit
  have ok := fit_okMesh hf hE
  have hab := (chn_range ok.chn ok.pos).1
  have aI : (0 : ℝ) ∈ Set.Icc 0 boxB := ⟨le_rfl, hab⟩
  have bI : boxB ∈ Set.Icc 0 boxB := ⟨hab, le_rfl⟩
  have fam : ∀ x0 ∈ Set.Icc 0 boxB, ∀ v : ℝ × ℝ, ∃ g dg : ℝ → ℝ → ℝ, ∀ F, SolvesMesh (fun _ _ => 0) F (realMesh r.sectors) (g F) (dg F) ∧ g F x0 = v.1 ∧ dg F x0 = v.2 := by
    intro x0 hx0 v
    have : ∀ F : ℝ, ∃ p : (ℝ → ℝ) × (ℝ → ℝ), SolvesMesh (fun _ _ => 0) F (realMesh r.sectors) p.1 p.2 ∧ p.1 x0 = v.1 ∧ p.2 x0 = v.2 := fun F => by
      obtain ⟨y, dy, h1, h2, h3⟩ := mesh_exists_at (okMesh_any hf (by norm_num) F) hx0 v
      exact ⟨(y, dy), h1, h2, h3⟩
    choose p hp using this
    exact ⟨fun F => (p F).1, fun F => (p F).2, hp⟩
  obtain ⟨fL, dfL, hL⟩ := fam 0 aI (0, 1)
  obtain ⟨fR, dfR, hR⟩ := fam boxB bI (0, 1)
  have cst : ∀ {g : ℝ → ℝ} {v : ℝ}, (∀ F, g F = v) → HasDerivAt g 0 E := by
    intro g v h1
    have : g = fun _ => v := funext h1
    rw [this]; exact hasDerivAt_const _ _
  have d1 := cst fun F => (hL F).2.1
  have d2 := cst fun F => (hL F).2.2
  have d3 := cst fun F => (hR F).2.1
  have d4 := cst fun F => (hR F).2.2
  have ba : IsBoundary (bounds (realMesh r.sectors)) 0 := by
    have : _ = (0 : ℝ) := hf.mesh.first
    rw [← this]; exact (boundary_of_mem (List.getElem_mem _)).1
  have bb : IsBoundary (bounds (realMesh r.sectors)) boxB := by
    have : _ = boxB := hf.mesh.last
    rw [← this]; exact (boundary_of_mem (List.getElem_mem _)).2
  obtain ⟨res, yE, dyE, e1, e2, -, -, -, e5, -⟩ := k1 _ H u u 0 0 ε _ _ _ _ r _ _ (fun _ _ _ _ => 0) (fun _ _ _ _ _ _ => 0) 0 ⟨E⟩ 0 ⟨boxB⟩ true fL dfL ⟨0, 1, 0, 0⟩ 1 0 hF le_rfl h1 h2
    (by show boxB - 0 ≤ 30; linarith) hE aI bI ba bb (fun F => (hL F).1) (hL E).2.1.symm (hL E).2.2.symm d1 d2 (by simp) (by simp)
  obtain ⟨err, d, g1, g2, g3⟩ := k2 _ H u u 0 0 ε _ _ _ _ r _ _ (fun _ _ _ _ => 0) (fun _ _ _ _ _ _ => 0) 0 ⟨E⟩ true ⟨0, 1, 0, 0⟩ ⟨0, 1, 0, 0⟩ 1 1 0 0 fL dfL fR dfR hF le_rfl h1
    (by
      show H ^ 16 + ε ≤ 1 / 8
      rw [← hκ]
      have : 4 * κ ≤ (C1 + C2 + 4) * κ := mul_le_mul_of_nonneg_right (by linarith) κ0
      linarith)
    (by show boxB - 0 ≤ 30; linarith) hE h4 (by simp) (by simp) (by simp) (by simp) (by linarith) (by linarith) (by linarith)
    (fun F => (hL F).1) (hL E).2.1 (hL E).2.2 d1 d2 (fun F => (hR F).1) (hR E).2.1 (hR E).2.2 d3 d4
  refine ⟨C1 + C2 + 4, hC, p, H, u, ε, r, fL, dfL, fR, dfR, res, err, yE, d, u0, by rw [← hκ]; exact h3, e1, e2, e5.trans ?_, g1, g2 0 aI, g3.trans ?_⟩
  · show C1 * (H ^ 16 + ε) * _ ≤ _
    rw [← hκ]
    exact mul_le_mul_of_nonneg_right (mul_le_mul_of_nonneg_right (by linarith) κ0) (by linarith)
  · show C2 * (H ^ 16 + ε) * _ ≤ _
    rw [← hκ]
    exact mul_le_mul_of_nonneg_right (mul_le_mul_of_nonneg_right (by linarith) κ0) (by norm_num)

end Verif.Fp
