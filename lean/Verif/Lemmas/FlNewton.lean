import Verif.Lemmas.FlEnergy
import Verif.Lemmas.FlEigen
import Verif.Lemmas.EnergyGlue
import Verif.Lemmas.NewtonNear

/-!
# The energy derivative of the matching error, and Newton's step, in finite precision
-/
namespace Verif.Fp
open Verif.Mesh Verif.YT Verif.CalcT Verif.Propag Verif.Solver Verif.Spec Verif.Legendre

set_option maxHeartbeats 1600000 in
/-- The matching error and its energy derivative in finite precision. -/
theorem matching_dfl (M : ℝ) (hM : 1 ≤ M) : ∃ C : ℝ, 1 ≤ C ∧ ∀ (fl : ℝ → ℝ) (H u mu σ τ ε : ℝ) (W : Sec ℝ → ℝ → ℝ) (dmin dmax eps : Fl fl) (r : BuildResult (Fl fl))
    (eta : ℕ → Fl fl → ℕ → Fl fl) (vs : Sec (Fl fl) → ℕ → Fl fl) (th : Fl fl → Fl fl → Fl fl → Y (Fl fl) → Fl fl) (pru : Fl fl → Fl fl → Fl fl → Fl fl → Y (Fl fl) → Y (Fl fl) → Fl fl)
    (pi E : Fl fl) (useH : Bool) (left right : Y (Fl fl)) (sL sR tL tR : ℝ) (fL dfL fR dfR : ℝ → ℝ → ℝ),
    FlFit M H u mu σ τ (6 * M * H) W dmin dmax eps r.sectors eta vs → 0 ≤ σ → τ + r.sectors.length * (u + σ) ≤ ε → H ^ ord useH + ε ≤ 1 / 8 → dmax.val - dmin.val ≤ M → |E.val| ≤ M →
    r.matchIndex < r.sectors.length → sL = sz (pr (valY left)) → sR = sz (pr (valY right)) → tL = sz (pe (valY left)) + sL → tR = sz (pe (valY right)) + sR → mu ≤ sL → mu ≤ sR → mu ≤ sL * sR →
    (∀ F, SolvesMesh W F (realMesh r.sectors) (fL F) (dfL F)) → fL E.val dmin.val = left.y.val → dfL E.val dmin.val = left.dy.val →
    HasDerivAt (fun F => fL F dmin.val) left.yE.val E.val → HasDerivAt (fun F => dfL F dmin.val) left.dyE.val E.val →
    (∀ F, SolvesMesh W F (realMesh r.sectors) (fR F) (dfR F)) → fR E.val dmax.val = right.y.val → dfR E.val dmax.val = right.dy.val →
    HasDerivAt (fun F => fR F dmax.val) right.yE.val E.val → HasDerivAt (fun F => dfR F dmax.val) right.dyE.val E.val →
    ∃ err d, (constructGen eps eta th pru vs dmin dmax r).matchingError pi E left right useH = .ok err ∧
      (∀ x ∈ Set.Icc dmin.val dmax.val, HasDerivAt (fun F => dfL F x * fR F x - dfR F x * fL F x) d E.val) ∧
      (∀ x ∈ Set.Icc dmin.val dmax.val, |err.1.val - (dfL E.val x * fR E.val x - dfR E.val x * fL E.val x)| ≤ C * (H ^ ord useH + ε) * (sL * sR)) ∧
      |err.2.1.val - d| ≤ C * (H ^ ord useH + ε) * (tL * tR) ∧ |d| ≤ C * (tL * tR) := by
  obtain ⟨C, hC, key⟩ := converge_dfl M hM
  have C0 : 0 < C := by linarith
  obtain ⟨A, hA⟩ : ∃ A, A = 12 * ((2 * C) * (2 * C)) := ⟨_, rfl⟩
  have hA1 : 1 ≤ A := by rw [hA]; nlinarith
  refine ⟨4 * (4 * (A + A) + 4 * (A + A)), by linarith, ?_⟩
  intro fl H u mu σ τ ε W dmin dmax eps r eta vs th pru pi E useH left right sL sR tL tR fL dfL fR dfR hF hσ0 hε hκ8 hd hE hm eSL eSR eTL eTR muL muR muLR hL l1 l2 l3 l4 hR r1 r2 r3 r4
  have hf := hF.fit
  have hH0 := fit_pos hf
  have hHp : 0 ≤ H ^ ord useH := by positivity
  have hε1 : ε ≤ 1 / 8 := by linarith
  have ok := fit_okMesh hf hE
  have hab := (chn_range ok.chn ok.pos).1
  set P := constructGen eps eta th pru vs dmin dmax r with hP
  obtain ⟨v0M, hsecs⟩ : ∃ v0, P.secs = r.sectors.map (fun s => sectorGen eps eta th pru (vs s) v0 s) := ⟨_, rfl⟩
  have hlen : r.matchIndex < P.secs.length := by rw [hsecs, List.length_map]; exact hm
  have hmi : P.matchIndex = r.matchIndex := rfl
  set s := r.sectors[r.matchIndex] with hsd
  have hsm : s ∈ r.sectors := List.getElem_mem hm
  have hsm' : realSec s ∈ realMesh r.sectors := List.mem_map_of_mem hsm
  have hget : P.secs[P.matchIndex]? = some (sectorGen eps eta th pru (vs s) v0M s) := by
    rw [hmi, List.getElem?_eq_getElem hlen]
    simp only [hsecs, List.getElem_map, hsd]
  have hmx : (sectorGen eps eta th pru (vs s) v0M s).max = s.max := rfl
  set m := s.max with hmdef
  have rs := (chn_range ok.chn ok.pos).2 _ hsm'
  have ps := ok.pos _ hsm'
  have em : (realSec s).max = m.val := rfl
  rw [em] at rs ps
  have mI : m.val ∈ Set.Icc dmin.val dmax.val := ⟨by linarith, rs.2⟩
  have aI : dmin.val ∈ Set.Icc dmin.val dmax.val := ⟨le_rfl, hab⟩
  have bI : dmax.val ∈ Set.Icc dmin.val dmax.val := ⟨hab, le_rfl⟩
  have bm : IsBoundary (bounds (realMesh r.sectors)) m.val := (boundary_of_mem hsm').2
  have ba : IsBoundary (bounds (realMesh r.sectors)) dmin.val := by
    rw [← hf.mesh.first]; exact (boundary_of_mem (List.getElem_mem _)).1
  have bb : IsBoundary (bounds (realMesh r.sectors)) dmax.val := by
    rw [← hf.mesh.last]; exact (boundary_of_mem (List.getElem_mem _)).2
  have hpm : P.dmin = dmin := rfl
  have hpM : P.dmax = dmax := rfl
  obtain ⟨zL, dzL, eL, zL1, zL2, dL⟩ := family_deriv hM hf hE hL aI l3 l4
  obtain ⟨zR, dzR, eR, zR1, zR2, dR⟩ := family_deriv hM hf hE hR bI r3 r4
  obtain ⟨L, e1, u1, u2, u3, u4⟩ := key fl H u mu σ τ ε W dmin dmax eps r eta vs th pru pi E dmin m useH (fL E.val) (dfL E.val) zL dzL left hF hσ0 hε hε1 hd hE (hL _) eL ba bm
    (by rw [l1, l2]; rfl) (by rw [zL1, zL2]; rfl)
  obtain ⟨R, f1, v1, v2, v3, v4⟩ := key fl H u mu σ τ ε W dmin dmax eps r eta vs th pru pi E dmax m useH (fR E.val) (dfR E.val) zR dzR right hF hσ0 hε hε1 hd hE (hR _) eR bb bm
    (by rw [r1, r2]; rfl) (by rw [zR1, zR2]; rfl)
  have pL : sz (fL E.val dmin.val, dfL E.val dmin.val) = sL := by rw [l1, l2, eSL]; rfl
  have pR : sz (fR E.val dmax.val, dfR E.val dmax.val) = sR := by rw [r1, r2, eSR]; rfl
  have qL : sz (zL dmin.val, dzL dmin.val) + sL = tL := by rw [zL1, zL2, eTL]; rfl
  have qR : sz (zR dmax.val, dzR dmax.val) + sR = tR := by rw [zR1, zR2, eTR]; rfl
  rw [pL] at u1 u2 u3 u4
  rw [pR] at v1 v2 v3 v4
  rw [← add_assoc, qL] at u2 u4
  rw [← add_assoc, qR] at v2 v4
  have stL : sL ≤ tL := by rw [eTL]; linarith [sz_nonneg (pe (valY left))]
  have stR : sR ≤ tR := by rw [eTR]; linarith [sz_nonneg (pe (valY right))]
  have sL0 : 0 ≤ sL := by rw [eSL]; exact sz_nonneg _
  have sR0 : 0 ≤ sR := by rw [eSR]; exact sz_nonneg _
  have tL0 : 0 ≤ tL := by linarith
  have tR0 : 0 ≤ tR := by linarith
  have hu0 := hF.u0
  have hτ0 : 0 ≤ τ := (hF.coeff _ hsm).nonneg
  have hN1 : (1 : ℝ) ≤ r.sectors.length := by exact_mod_cast (show 0 < r.sectors.length by omega)
  have huε : u + σ ≤ ε := by
    have : u + σ ≤ r.sectors.length * (u + σ) := le_mul_of_one_le_left (by linarith) hN1
    linarith
  have hA' := hF.arith hσ0 (by linarith) hsm
  obtain ⟨κ, hκ⟩ : ∃ κ, κ = H ^ ord useH + ε := ⟨_, rfl⟩
  rw [← hκ] at u3 u4 v3 v4 hκ8
  have κ0 : 0 ≤ κ := by rw [hκ]; linarith
  have ar : Arith u mu κ fl := ⟨hF.r, hu0, by linarith, hκ8, hF.mu0, hA'.mu1⟩
  have mk : ∀ {x : Fl fl} {x' g : ℝ}, mu ≤ g → 0 ≤ g → |x'| ≤ C * (g + mu) → |x.val - x'| ≤ C * κ * (g + mu) → Rel κ g (2 * C) x x' := by
    intro x x' g h1 h2 h3 h4
    have i1 : C * (g + mu) ≤ C * (2 * g) := mul_le_mul_of_nonneg_left (by linarith) C0.le
    have i2 : C * κ * (g + mu) ≤ C * κ * (2 * g) := mul_le_mul_of_nonneg_left (by linarith) (by positivity)
    exact ⟨by linarith, by linarith⟩
  have rLy : Rel κ sL (2 * C) L.1.y (fL E.val m.val) := mk muL sL0 ((le_sz1 _).trans u1) ((le_sz1 _).trans u3)
  have rLd : Rel κ sL (2 * C) L.1.dy (dfL E.val m.val) := mk muL sL0 ((le_sz2 _).trans u1) ((le_sz2 _).trans u3)
  have rRy : Rel κ sR (2 * C) R.1.y (fR E.val m.val) := mk muR sR0 ((le_sz1 _).trans v1) ((le_sz1 _).trans v3)
  have rRd : Rel κ sR (2 * C) R.1.dy (dfR E.val m.val) := mk muR sR0 ((le_sz2 _).trans v1) ((le_sz2 _).trans v3)
  have zLy : Rel κ tL (2 * C) L.1.yE (zL m.val) := mk (by linarith) tL0 ((le_sz1 _).trans u2) ((le_sz1 _).trans u4)
  have zLd : Rel κ tL (2 * C) L.1.dyE (dzL m.val) := mk (by linarith) tL0 ((le_sz2 _).trans u2) ((le_sz2 _).trans u4)
  have zRy : Rel κ tR (2 * C) R.1.yE (zR m.val) := mk (by linarith) tR0 ((le_sz1 _).trans v2) ((le_sz1 _).trans v4)
  have zRd : Rel κ tR (2 * C) R.1.dyE (dzR m.val) := mk (by linarith) tR0 ((le_sz2 _).trans v2) ((le_sz2 _).trans v4)
  have up : ∀ {x : Fl fl} {x' g g' : ℝ}, Rel κ g (2 * C) x x' → g ≤ g' → Rel κ g' (2 * C) x x' := fun h h1 => Rel.scale ar (by linarith) h h1
  have pr2 : ∀ {x y : Fl fl} {x' y' : ℝ}, Rel κ tL (2 * C) x x' → Rel κ tR (2 * C) y y' → Rel κ (tL * tR) A (x * y) (x' * y') := by
    intro x y x' y' h1 h2
    rw [hA]
    exact Rel.mul ar tL0 tR0 (muLR.trans (mul_le_mul stL stR sR0 tL0)) (by linarith) (by linarith) h1 h2
  have pr2' : ∀ {x y : Fl fl} {x' y' : ℝ}, Rel κ tR (2 * C) x x' → Rel κ tL (2 * C) y y' → Rel κ (tL * tR) A (x * y) (x' * y') := by
    intro x y x' y' h1 h2
    rw [hA, mul_comm tL tR]
    exact Rel.mul ar tR0 tL0 (by rw [mul_comm]; exact muLR.trans (mul_le_mul stL stR sR0 tL0)) (by linarith) (by linarith) h1 h2
  have pr1 : ∀ {x y : Fl fl} {x' y' : ℝ}, Rel κ sL (2 * C) x x' → Rel κ sR (2 * C) y y' → Rel κ (sL * sR) A (x * y) (x' * y') := by
    intro x y x' y' h1 h2
    rw [hA]
    exact Rel.mul ar sL0 sR0 muLR (by linarith) (by linarith) h1 h2
  have pr1' : ∀ {x y : Fl fl} {x' y' : ℝ}, Rel κ sR (2 * C) x x' → Rel κ sL (2 * C) y y' → Rel κ (sL * sR) A (x * y) (x' * y') := by
    intro x y x' y' h1 h2
    rw [hA, mul_comm sL sR]
    exact Rel.mul ar sR0 sL0 (by rw [mul_comm]; exact muLR) (by linarith) (by linarith) h1 h2
  have muT : mu ≤ tL * tR := muLR.trans (mul_le_mul stL stR sR0 tL0)
  have relErr := Rel.sub ar muLR hA1 hA1 (pr1 rLd rRy) (pr1' rRd rLy)
  have a4 : 1 ≤ 4 * (A + A) := by linarith
  have relD := Rel.sub ar muT a4 a4 (Rel.add ar muT hA1 hA1 (pr2 zLd (up rRy stR)) (pr2 (up rLd stL) zRy)) (Rel.add ar muT hA1 hA1 (pr2' zRd (up rLy stL)) (pr2' (up rRd stR) zLy))
  refine ⟨(L.1.dy * R.1.y - R.1.dy * L.1.y,
      L.1.dyE * R.1.y + L.1.dy * R.1.yE - (R.1.dyE * L.1.y + R.1.dy * L.1.yE), L.2 - R.2),
    dzL m.val * fR E.val m.val + dfL E.val m.val * zR m.val - (dzR m.val * fL E.val m.val + dfR E.val m.val * zL m.val), ?_, ?_, ?_, ?_, ?_⟩
  · unfold Prob.matchingError
    rw [hget]
    simp only [hmx, hpm, hpM]
    rw [e1, f1]
    rfl
  · intro x hx
    have e2 : (fun F => dfL F x * fR F x - dfR F x * fL F x) = fun F => dfL F m.val * fR F m.val - dfR F m.val * fL F m.val := by
      funext F
      have okF := okMesh_any hf hM F
      have w1 := wronskR ((hL F).right okF) ((hR F).right okF) hx
      have w2 := wronskR ((hL F).right okF) ((hR F).right okF) mI
      linarith [mul_comm (dfR F x) (fL F x), mul_comm (dfR F m.val) (fL F m.val)]
    rw [e2]
    have k := ((dL m.val mI).2.mul (dR m.val mI).1).sub ((dR m.val mI).2.mul (dL m.val mI).1)
    exact k.congr_deriv (by ring)
  · intro x hx
    have w1 := wronskR ((hL _).right ok) ((hR _).right ok) hx
    have w2 := wronskR ((hL _).right ok) ((hR _).right ok) mI
    have wx : dfL E.val x * fR E.val x - dfR E.val x * fL E.val x = dfL E.val m.val * fR E.val m.val - dfR E.val m.val * fL E.val m.val := by
      linarith [mul_comm (dfR E.val x) (fL E.val x), mul_comm (dfR E.val m.val) (fL E.val m.val)]
    rw [wx, ← hκ]
    refine relErr.2.trans ?_
    have i : 0 ≤ A * κ * (sL * sR) := by positivity
    linarith only [i, (by ring : 4 * (A + A) * (sL * sR) * κ = 8 * (A * κ * (sL * sR))), (by ring : 4 * (4 * (A + A) + 4 * (A + A)) * κ * (sL * sR) = 64 * (A * κ * (sL * sR)))]
  · rw [← hκ]
    exact relD.2.trans (le_of_eq (by ring))
  · exact relD.1

end Verif.Fp
