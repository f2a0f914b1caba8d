import Verif.Lemmas.EnergyDMesh
import Verif.Lemmas.EnergyGlue
import Verif.Props.NewtonConverge

/-!
# C96, C97: the energy derivatives computed by `propagate` and by `matchingError` are the true ones

`Y::y()[2], y()[3]` (`yE`, `dyE` in `Model/YT`) and the second component of `matchingError` (`Model/Propagate`), run on the solver's own
sectors (`Model/Solver`), against the derivative with respect to the energy of exact solutions (`HasDerivAt`).
-/
namespace Verif.Solver
open Verif.Mesh Verif.YT Verif.CalcT Verif.Propag Verif.Formulas Verif.Legendre Verif.Spec Verif.Search

theorem bl_sub_left (u u' v : ℝ × ℝ) : bl (u' - u) v = bl u' v - bl u v := by simp only [bl, Prod.fst_sub, Prod.snd_sub]; ring
theorem bl_sub_right (u v v' : ℝ × ℝ) : bl u (v' - v) = bl u v' - bl u v := by simp only [bl, Prod.fst_sub, Prod.snd_sub]; ring

theorem bl_near {g e s r : ℝ} {u u' v v' : ℝ × ℝ} (hg : 0 ≤ g) (he : 0 ≤ e) (heg : e ≤ 2 * g) (hs : 0 ≤ s) (hr : 0 ≤ r) (hu : sz u ≤ g * s) (hv : sz v ≤ g * r)
    (du : sz (u' - u) ≤ e * s) (dv : sz (v' - v) ≤ e * r) : |bl u' v' - bl u v| ≤ 8 * g * e * (s * r) := by
  have e1 : bl u' v' - bl u v = bl (u' - u) (v' - v) + bl (u' - u) v + bl u (v' - v) := by
    simp only [bl, Prod.fst_sub, Prod.snd_sub]; ring
  have h1 := (bl_bound (u' - u) (v' - v)).trans (mul_le_mul_of_nonneg_left (mul_le_mul du dv (sz_nonneg _) (by positivity)) (by norm_num : (0 : ℝ) ≤ 2))
  have h2 := (bl_bound (u' - u) v).trans (mul_le_mul_of_nonneg_left (mul_le_mul du hv (sz_nonneg _) (by positivity)) (by norm_num : (0 : ℝ) ≤ 2))
  have h3 := (bl_bound u (v' - v)).trans (mul_le_mul_of_nonneg_left (mul_le_mul hu dv (sz_nonneg _) (by positivity)) (by norm_num : (0 : ℝ) ≤ 2))
  have h4 := abs_add_three (bl (u' - u) (v' - v)) (bl (u' - u) v) (bl u (v' - v))
  rw [e1]
  have h5 : e * s * (e * r) ≤ 2 * g * (e * (s * r)) := by
    have := mul_le_mul_of_nonneg_right heg (show 0 ≤ e * (s * r) by positivity)
    linarith only [this, show e * s * (e * r) = e * (e * (s * r)) by ring]
  linarith only [h1, h2, h3, h4, h5, show e * s * (g * r) = g * (e * (s * r)) by ring, show g * s * (e * r) = g * (e * (s * r)) by ring,
    show 8 * g * e * (s * r) = 8 * (g * (e * (s * r))) by ring]

/-- **C96.** For every bound `M` there is a constant `C` such that, for every mesh and potential within the bounds, every energy `|E| ≤ M`, every
family `f F` of exact solutions (one for each energy `F`) that is differentiable in the energy at the start `a`, and every two mesh points `a`, `b`
(in either order): `propagate`, started at `a` with the values of the family and its energy derivative, succeeds, the family is differentiable in the energy at `b`, and the
computed solution and its computed energy derivative at `b` are within `C (H^16 + ε)` (`H^14` without the `h` terms) of the exact ones, relative to
the size of the start values. -/
theorem C96_energy_derivative (M : ℝ) (hM : 1 ≤ M) : ∃ C : ℝ, 1 ≤ C ∧ ∀ (eps ε : ℝ) (eta : ℕ → ℝ → ℕ → ℝ) (vs : Sec ℝ → ℕ → ℝ) (W : Sec ℝ → ℝ → ℝ)
    (dmin dmax H E pi : ℝ) (r : BuildResult ℝ) (useH : Bool) (a b yE dyE : ℝ) (f df : ℝ → ℝ → ℝ),
    FitMesh eps M H W dmin dmax r.sectors → AccurateTo ε W r.sectors eta vs → dmax - dmin ≤ M → |E| ≤ M →
    a ∈ Set.Icc dmin dmax → b ∈ Set.Icc dmin dmax → IsBoundary (bounds r.sectors) a → IsBoundary (bounds r.sectors) b →
    (∀ F, SolvesMesh W F r.sectors (f F) (df F)) → HasDerivAt (fun F => f F a) yE E → HasDerivAt (fun F => df F a) dyE E →
    ∃ y θ yE' dyE', (constructOf eps eta vs dmin dmax r).propagate pi E ⟨f E a, df E a, yE, dyE⟩ a b useH = .ok (y, θ) ∧
      HasDerivAt (fun F => f F b) yE' E ∧ HasDerivAt (fun F => df F b) dyE' E ∧
      |y.y - f E b| ≤ C * (H ^ (if useH then 16 else 14) + ε) * max |f E a| |df E a| ∧
      |y.dy - df E b| ≤ C * (H ^ (if useH then 16 else 14) + ε) * max |f E a| |df E a| ∧
      |y.yE - yE'| ≤ C * (H ^ (if useH then 16 else 14) + ε) * (max |yE| |dyE| + max |f E a| |df E a|) ∧
      |y.dyE - dyE'| ≤ C * (H ^ (if useH then 16 else 14) + ε) * (max |yE| |dyE| + max |f E a| |df E a|) := by
  obtain ⟨C, hC, key⟩ := propagate_dnear M hM
  refine ⟨C, hC, ?_⟩
  intro eps ε eta vs W dmin dmax H E pi r useH a b yE dyE f df hf ⟨hε1, σ, τ, he, hv, hε⟩ hd hE ha hb ba bb hfam d1 d2
  obtain ⟨z, dz, hz, z1, z2, hz'⟩ := family_deriv hM hf hE hfam ha d1 d2
  obtain ⟨res, h1, -, -, h4, h5⟩ := key eps σ τ ε eta vs W dmin dmax H E pi r useH a b ⟨f E a, df E a, yE, dyE⟩ (f E) (df E) z dz hf he hv hε hε1 hd hE ha hb ba bb (hfam E) hz rfl (by rw [z1, z2]; rfl)
  rw [z1, z2] at h5
  exact ⟨res.1, res.2, z b, dz b, h1, (hz' b hb).1, (hz' b hb).2, (le_sz1 _).trans h4, (le_sz2 _).trans h4, (le_sz1 _).trans h5, (le_sz2 _).trans h5⟩

set_option maxHeartbeats 800000 in
/-- **C97.** The derivative that `matchingError` returns beside the mismatch (the one Newton's method divides by) is the derivative with respect to
the energy of the exact mismatch `y_L' y_R - y_R' y_L` of the solutions through the boundary values, up to `C (H^16 + ε)` relative to the size of the
boundary values (including their own energy derivatives); the mismatch is differentiable, and the same at every point `x`. -/
theorem C97_matching_derivative (M : ℝ) (hM : 1 ≤ M) : ∃ C : ℝ, 1 ≤ C ∧ ∀ (eps ε : ℝ) (eta : ℕ → ℝ → ℕ → ℝ) (vs : Sec ℝ → ℕ → ℝ) (W : Sec ℝ → ℝ → ℝ)
    (dmin dmax H E pi : ℝ) (r : BuildResult ℝ) (useH : Bool) (left right : Y ℝ) (fL dfL fR dfR : ℝ → ℝ → ℝ),
    FitMesh eps M H W dmin dmax r.sectors → AccurateTo ε W r.sectors eta vs → dmax - dmin ≤ M → |E| ≤ M → r.matchIndex < r.sectors.length →
    (∀ F, SolvesMesh W F r.sectors (fL F) (dfL F)) → fL E dmin = left.y → dfL E dmin = left.dy →
    HasDerivAt (fun F => fL F dmin) left.yE E → HasDerivAt (fun F => dfL F dmin) left.dyE E →
    (∀ F, SolvesMesh W F r.sectors (fR F) (dfR F)) → fR E dmax = right.y → dfR E dmax = right.dy →
    HasDerivAt (fun F => fR F dmax) right.yE E → HasDerivAt (fun F => dfR F dmax) right.dyE E →
    ∃ err d, (constructOf eps eta vs dmin dmax r).matchingError pi E left right useH = .ok err ∧
      (∀ x ∈ Set.Icc dmin dmax, HasDerivAt (fun F => dfL F x * fR F x - dfR F x * fL F x) d E) ∧
      |err.2.1 - d| ≤ C * (H ^ (if useH then 16 else 14) + ε) *
        ((max |left.yE| |left.dyE| + max |left.y| |left.dy|) * (max |right.yE| |right.dyE| + max |right.y| |right.dy|)) := by
  obtain ⟨C, hC, key⟩ := propagate_dnear M hM
  have C0 : 0 < C := by linarith
  refine ⟨16 * C ^ 2, by nlinarith, ?_⟩
  intro eps ε eta vs W dmin dmax H E pi r useH left right fL dfL fR dfR hf ⟨hε1, σ, τ, he, hv, hε⟩ hd hE hm hL l1 l2 l3 l4 hR r1 r2 r3 r4
  have hH0 := fit_pos hf
  have ok := fit_okMesh hf hE
  have hab := (chn_range ok.chn ok.pos).1
  set P := constructOf eps eta vs dmin dmax r with hP
  obtain ⟨v0M, hsecs⟩ := construct_secs eps eta vs dmin dmax r
  rw [← hP] at hsecs
  have hlen : r.matchIndex < P.secs.length := by rw [hsecs, List.length_map]; exact hm
  have hmi : P.matchIndex = r.matchIndex := rfl
  set s := r.sectors[r.matchIndex] with hsd
  have hsm : s ∈ r.sectors := List.getElem_mem hm
  have hget : P.secs[P.matchIndex]? = some (sectorOf eps eta (vs s) v0M s) := by
    rw [hmi, List.getElem?_eq_getElem hlen]
    simp only [hsecs, List.getElem_map, hsd]
  have hmx : (sectorOf eps eta (vs s) v0M s).max = s.max := rfl
  set m := s.max with hmdef
  have rs := (chn_range ok.chn ok.pos).2 s hsm
  have ps := ok.pos s hsm
  have mI : m ∈ Set.Icc dmin dmax := ⟨by linarith, rs.2⟩
  have aI : dmin ∈ Set.Icc dmin dmax := ⟨le_rfl, hab⟩
  have bI : dmax ∈ Set.Icc dmin dmax := ⟨hab, le_rfl⟩
  have bm : IsBoundary (bounds r.sectors) m := (boundary_of_mem hsm).2
  have ba : IsBoundary (bounds r.sectors) dmin := by
    rw [← hf.mesh.first]; exact (boundary_of_mem (List.getElem_mem _)).1
  have bb : IsBoundary (bounds r.sectors) dmax := by
    rw [← hf.mesh.last]; exact (boundary_of_mem (List.getElem_mem _)).2
  have hpm : P.dmin = dmin := rfl
  have hpM : P.dmax = dmax := rfl
  obtain ⟨zL, dzL, eL, zL1, zL2, dL⟩ := family_deriv hM hf hE hL aI l3 l4
  obtain ⟨zR, dzR, eR, zR1, zR2, dR⟩ := family_deriv hM hf hE hR bI r3 r4
  obtain ⟨L, e1, u1, u2, u3, u4⟩ := key eps σ τ ε eta vs W dmin dmax H E pi r useH dmin m left (fL E) (dfL E) zL dzL hf he hv hε hε1 hd hE aI mI ba bm (hL E) eL
    (by rw [l1, l2]; rfl) (by rw [zL1, zL2]; rfl)
  obtain ⟨R, f1, v1, v2, v3, v4⟩ := key eps σ τ ε eta vs W dmin dmax H E pi r useH dmax m right (fR E) (dfR E) zR dzR hf he hv hε hε1 hd hE bI mI bb bm (hR E) eR
    (by rw [r1, r2]; rfl) (by rw [zR1, zR2]; rfl)
  rw [l1, l2] at u1 u2 u3 u4
  rw [zL1, zL2] at u2 u4
  rw [r1, r2] at v1 v2 v3 v4
  rw [zR1, zR2] at v2 v4
  have hε0 : 0 ≤ ε := by
    have h1 := (hv s hsm).nonneg
    have h2 := mul_nonneg (Nat.cast_nonneg (α := ℝ) r.sectors.length) he.nonneg
    linarith
  have me : P.matchingError pi E left right useH = .ok (bl (pr L.1) (pr R.1), bl (pe L.1) (pr R.1) + bl (pr L.1) (pe R.1), L.2 - R.2) := by
    unfold Prob.matchingError
    rw [hget]
    simp only [hmx, hpm, hpM]
    rw [e1, f1]
    simp only [Outcome.bind_ok, Outcome.pure_eq, bl, pr, pe]
    congr 3
    ring
  refine ⟨_, bl (zL m, dzL m) (fR E m, dfR E m) + bl (fL E m, dfL E m) (zR m, dzR m), me, ?_, ?_⟩
  · intro x hx
    have e2 : (fun F => dfL F x * fR F x - dfR F x * fL F x) = fun F => dfL F m * fR F m - dfR F m * fL F m := by
      funext F
      have okF := okMesh_any hf hM F
      have w1 := wronskR ((hL F).right okF) ((hR F).right okF) hx
      have w2 := wronskR ((hL F).right okF) ((hR F).right okF) mI
      linarith [mul_comm (dfR F x) (fL F x), mul_comm (dfR F m) (fL F m)]
    rw [e2]
    have k := ((dL m mI).2.mul (dR m mI).1).sub ((dR m mI).2.mul (dL m mI).1)
    exact k.congr_deriv (by simp only [bl]; ring)
  · show |bl (pe L.1) (pr R.1) + bl (pr L.1) (pe R.1) - _| ≤ _
    set κ := H ^ ord useH + ε with hκ
    have κ0 : 0 ≤ κ := by positivity
    have κ2 : κ ≤ 2 := by
      have : H ^ ord useH ≤ 1 := pow_le_one₀ hH0.le hf.small
      linarith
    have s0 := sz_nonneg (left.y, left.dy)
    have t0 := sz_nonneg (left.yE, left.dyE)
    have s0' := sz_nonneg (right.y, right.dy)
    have t0' := sz_nonneg (right.yE, right.dyE)
    set S := sz (left.y, left.dy) with hS
    set T := sz (left.yE, left.dyE) with hT
    set S' := sz (right.y, right.dy) with hS'
    set T' := sz (right.yE, right.dyE) with hT'
    have a1 : C * S ≤ C * (T + S) := mul_le_mul_of_nonneg_left (by linarith) C0.le
    have a2 : C * S' ≤ C * (T' + S') := mul_le_mul_of_nonneg_left (by linarith) C0.le
    have a3 : C * κ * S ≤ C * κ * (T + S) := mul_le_mul_of_nonneg_left (by linarith) (by positivity)
    have a4 : C * κ * S' ≤ C * κ * (T' + S') := mul_le_mul_of_nonneg_left (by linarith) (by positivity)
    have hCκ : C * κ ≤ 2 * C := by nlinarith
    have b1 := bl_near C0.le (by positivity) hCκ (by positivity) (by positivity) u2 (v1.trans a2) u4 (v3.trans a4)
    have b2 := bl_near C0.le (by positivity) hCκ (by positivity) (by positivity) (u1.trans a1) v2 (u3.trans a3) v4
    rw [show bl (pe L.1) (pr R.1) + bl (pr L.1) (pe R.1) - (bl (zL m, dzL m) (fR E m, dfR E m) + bl (fL E m, dfL E m) (zR m, dzR m)) =
      (bl (pe L.1) (pr R.1) - bl (zL m, dzL m) (fR E m, dfR E m)) + (bl (pr L.1) (pe R.1) - bl (fL E m, dfL E m) (zR m, dzR m)) by ring]
    refine (abs_add_le _ _).trans ?_
    have b3 : 16 * C ^ 2 * κ * ((T + S) * (T' + S')) = 8 * C * (C * κ) * ((T + S) * (T' + S')) + 8 * C * (C * κ) * ((T + S) * (T' + S')) := by ring
    exact (add_le_add b1 b2).trans (le_of_eq b3.symm)

/-- C96, C97: `V(x) = x²` on `[-1, 1]` at the eigenvalue `1`, uniform sectors: families of exact solutions through the boundary values exist and all the hypotheses
are met, so the derivative returned by `matchingError` converges to the derivative of the exact mismatch, and the one returned by `propagate` from `-1` to `1` to
the derivative of the exact solution. -/
example : ∃ C : ℝ, 1 ≤ C ∧ ∀ (n : ℕ) (cmp : Sec ℝ → Sec ℝ → Bool) (pi : ℝ), 2 * C ≤ n → ∃ (r : BuildResult ℝ) (err : ℝ × ℝ × ℝ) (d : ℝ) (fL dfL fR dfR : ℝ → ℝ → ℝ), uniformBuild cmp n (-1) 1 = .ok r ∧
    (∀ F, SolvesMesh (fun _ x => x ^ 2) F r.sectors (fL F) (dfL F) ∧ fL F (-1) = 1 ∧ dfL F (-1) = 1) ∧ (∀ F, SolvesMesh (fun _ x => x ^ 2) F r.sectors (fR F) (dfR F) ∧ fR F 1 = 1 ∧ dfR F 1 = -1) ∧
    (constructOf 0 etaExact (exactVs fun x => x ^ 2) (-1) 1 r).matchingError pi 1 ⟨1, 1, 0, 0⟩ ⟨1, -1, 0, 0⟩ true = .ok err ∧
    (∀ x ∈ Set.Icc (-1 : ℝ) 1, HasDerivAt (fun F => dfL F x * fR F x - dfR F x * fL F x) d 1) ∧ |err.2.1 - d| ≤ C * ((1 - -1) / n) ^ 16 ∧
    ∃ y θ yE', (constructOf 0 etaExact (exactVs fun x => x ^ 2) (-1) 1 r).propagate pi 1 ⟨1, 1, 0, 0⟩ (-1) 1 true = .ok (y, θ) ∧
      HasDerivAt (fun F => fL F 1) yE' 1 ∧ |y.yE - yE'| ≤ C * ((1 - -1) / n) ^ 16 := by
  obtain ⟨C, hC, key⟩ := C97_matching_derivative 2 (by norm_num)
  obtain ⟨C', hC', key'⟩ := C96_energy_derivative 2 (by norm_num)
  refine ⟨C + C', by linarith, fun n cmp pi hn => ?_⟩
  obtain ⟨h1, h2, h3, h4⟩ := inv_small (show 1 ≤ C + C' by linarith) hn
  obtain ⟨r, e1, hlen, hm, hf, hc, hp, hne⟩ := uniform_fit cmp h1 le_rfl osc_smooth h2 h3
  have hv : CoeffsWithin 0 (fun _ x => x ^ 2) r.sectors (exactVs fun x => x ^ 2) := coeffs_on_mesh (exact_coeffs _ _ _ _) hf hc hp
  have fam : ∀ (x0 : ℝ) (_ : x0 ∈ Set.Icc (-1 : ℝ) 1) (u : ℝ × ℝ), ∃ g dg : ℝ → ℝ → ℝ, ∀ F, SolvesMesh (fun _ x => x ^ 2) F r.sectors (g F) (dg F) ∧ g F x0 = u.1 ∧ dg F x0 = u.2 := by
    intro x0 h0 u
    have : ∀ F : ℝ, ∃ p : (ℝ → ℝ) × (ℝ → ℝ), SolvesMesh (fun _ x => x ^ 2) F r.sectors p.1 p.2 ∧ p.1 x0 = u.1 ∧ p.2 x0 = u.2 := fun F => by
      obtain ⟨y, dy, h1, h2, h3⟩ := mesh_exists_at (okMesh_any hf (by norm_num) F) h0 u
      exact ⟨(y, dy), h1, h2, h3⟩
    choose p hp using this
    exact ⟨fun F => (p F).1, fun F => (p F).2, hp⟩
  obtain ⟨fL, dfL, hL⟩ := fam (-1) (by norm_num) (1, 1)
  obtain ⟨fR, dfR, hR⟩ := fam 1 (by norm_num) (1, -1)
  have acc : AccurateTo 0 (fun _ x => x ^ 2) r.sectors etaExact (exactVs fun x => x ^ 2) := ⟨by norm_num, 0, 0, etaWithin_exact, hv, by simp⟩
  have dc : ∀ (g : ℝ → ℝ → ℝ) (x c : ℝ), (∀ F, g F x = c) → HasDerivAt (fun F => g F x) 0 1 := fun g x c h => by
    simp only [h]; exact hasDerivAt_const _ _
  obtain ⟨err, d, k1, k2, k3⟩ := key 0 0 etaExact (exactVs fun x => x ^ 2) (fun _ x => x ^ 2) (-1) 1 ((1 - -1) / n) 1 pi r true ⟨1, 1, 0, 0⟩ ⟨1, -1, 0, 0⟩ fL dfL fR dfR hf
    acc (by norm_num) (by norm_num) hm (fun F => (hL F).1) (hL 1).2.1 (hL 1).2.2 (dc _ _ _ fun F => (hL F).2.1) (dc _ _ _ fun F => (hL F).2.2)
    (fun F => (hR F).1) (hR 1).2.1 (hR 1).2.2 (dc _ _ _ fun F => (hR F).2.1) (dc _ _ _ fun F => (hR F).2.2)
  have b0 : IsBoundary (bounds r.sectors) (-1) := by
    rw [← hf.mesh.first]; exact (boundary_of_mem (List.getElem_mem _)).1
  have b1 : IsBoundary (bounds r.sectors) 1 := by
    rw [← hf.mesh.last]; exact (boundary_of_mem (List.getElem_mem _)).2
  obtain ⟨y, θ, yE', dyE', j1, j2, -, -, -, j3, -⟩ := key' 0 0 etaExact (exactVs fun x => x ^ 2) (fun _ x => x ^ 2) (-1) 1 ((1 - -1) / n) 1 pi r true (-1) 1 0 0 fL dfL hf
    acc (by norm_num) (by norm_num) (by norm_num) (by norm_num) b0 b1 (fun F => (hL F).1) (dc _ _ _ fun F => (hL F).2.1) (dc _ _ _ fun F => (hL F).2.2)
  rw [(hL 1).2.1, (hL 1).2.2] at j1 j3
  have q0 : (0 : ℝ) ≤ ((1 - -1) / n) ^ 16 := by positivity
  have q1 : 0 ≤ C * ((1 - -1) / (n : ℝ)) ^ 16 := by positivity
  have q2 : 0 ≤ C' * ((1 - -1) / (n : ℝ)) ^ 16 := by positivity
  refine ⟨r, err, d, fL, dfL, fR, dfR, e1, hL, hR, k1, k2, ?_, y, θ, yE', j1, j2, ?_⟩
  · simp only [if_true, abs_zero, max_self, abs_one, abs_neg, zero_add, add_zero, mul_one] at k3
    rw [add_mul]
    linarith
  · simp only [if_true, abs_zero, max_self, abs_one, abs_neg, zero_add, add_zero, mul_one] at j3
    rw [add_mul]
    linarith

end Verif.Solver
