import Verif.Lemmas.FlConverge
import Verif.Props.Convergence

/-!
# Matching error and eigenvalues in finite precision
-/
namespace Verif.Solver
open Verif.Mesh Verif.YT Verif.CalcT Verif.Propag Verif.Formulas Verif.Legendre Verif.Spec

set_option maxHeartbeats 1600000 in
/-- A small exact mismatch at `E`: an eigenvalue nearby. -/
theorem eigen_of_small (M : ℝ) (hM : 1 ≤ M) : ∃ C : ℝ, 1 ≤ C ∧ ∀ (W : Sec ℝ → ℝ → ℝ) (a b E η : ℝ) (l : List (Sec ℝ)) (L R : ℝ × ℝ) (f0 df0 : ℝ → ℝ),
    Ok M W a l b → |E| ≤ M → 0 < sz L → 0 < sz R → SolvesMesh W E l f0 df0 → f0 a = L.1 → df0 a = L.2 → |df0 b * R.1 - R.2 * f0 b| ≤ η * (sz L * sz R) → C * η ≤ 1 →
    ∃ lam, IsEigenvalue W l a b L R lam ∧ |lam - E| ≤ C * η := by
  obtain ⟨C2, ρ, hC2, ρ0, ρ1, sens⟩ := sensitivity M hM
  have cρ : C2 ≤ C2 / ρ := by rw [le_div_iff₀ ρ0]; nlinarith
  refine ⟨C2 / ρ, by linarith, ?_⟩
  intro W a b E η l L R f0 df0 ok hE szL szR z1 z2 z3 bD hCη
  have hE1 : |E| ≤ M + 1 := by linarith
  obtain ⟨f, df, hfam⟩ := exists_family hM ok L
  have hS : 0 < sz L * sz R := by positivity
  have hη0 : 0 ≤ η := by
    have := (abs_nonneg _).trans bD
    exact nonneg_of_mul_nonneg_left this hS
  set D0 := df0 b * R.1 - R.2 * f0 b with hD0
  set δ := C2 * η with hδ
  have hδ0 : 0 ≤ δ := by positivity
  have hδρ : δ ≤ ρ := by
    have e2 : δ = C2 / ρ * η * ρ := by rw [hδ]; field_simp
    rw [e2]; nlinarith
  have hδC : δ ≤ C2 / ρ * η := mul_le_mul_of_nonneg_right cρ hη0
  have cD : C2 * |D0| ≤ δ * (sz L * sz R) := by
    have := mul_le_mul_of_nonneg_left bD (show 0 ≤ C2 by linarith)
    rw [hδ]; linarith
  have zL : sz (f0 a, df0 a) = sz L := by rw [z2, z3]
  obtain ⟨s, hs1, hs⟩ := sens W a b E l R f0 df0 ok hE szR (by rw [zL]; exact szL) z1 (by
    rw [zL]
    refine cD.trans ?_
    have : δ ≤ 1 := hδρ.trans ρ1
    nlinarith)
  rw [zL] at hs
  have bE : |E + δ| ≤ M + 1 := (abs_add_le _ _).trans (by rw [abs_of_nonneg hδ0]; linarith)
  have bE' : |E - δ| ≤ M + 1 := (abs_sub _ _).trans (by rw [abs_of_nonneg hδ0]; linarith)
  have d1 : |E + δ - E| = δ := by rw [add_sub_cancel_left, abs_of_nonneg hδ0]
  have d2 : |E - δ - E| = δ := by rw [show E - δ - E = -δ by ring, abs_neg, abs_of_nonneg hδ0]
  obtain ⟨u1, u2, u3⟩ := hfam _ bE
  obtain ⟨w1, w2, w3⟩ := hfam _ bE'
  have p1 := (hs (E + δ) _ _ (by rw [d1]; exact hδρ) (by rw [d1]; exact cD) u1 (by rw [u2, z2]) (by rw [u3, z3])).1 (by linarith)
  have p2 := (hs (E - δ) _ _ (by rw [d2]; exact hδρ) (by rw [d2]; exact cD) w1 (by rw [w2, z2]) (by rw [w3, z3])).2 (by linarith)
  have hC20 : 0 < C2 := by linarith
  have t1 : 0 ≤ s * (df (E + δ) b * R.1 - R.2 * f (E + δ) b) := by
    have : 0 ≤ sz L * sz R * (E + δ - E) := mul_nonneg hS.le (by linarith)
    exact nonneg_of_mul_nonneg_right (this.trans p1) hC20
  have t2 : 0 ≤ -s * (df (E - δ) b * R.1 - R.2 * f (E - δ) b) := by
    have : 0 ≤ sz L * sz R * (E - (E - δ)) := mul_nonneg hS.le (by linarith)
    exact nonneg_of_mul_nonneg_right (this.trans p2) hC20
  obtain ⟨lam, l1, l2, hlam⟩ := eigen_between hM ok (R := R) szL hfam (by linarith) bE' bE t2 t1 hs1
  exact ⟨lam, hlam, by rw [abs_le]; constructor <;> linarith⟩

/-- Around an eigenvalue the exact mismatch has opposite signs and grows at least linearly. -/
theorem sign_of_eigen (M : ℝ) (hM : 1 ≤ M) : ∃ C : ℝ, 1 ≤ C ∧ ∀ (W : Sec ℝ → ℝ → ℝ) (a b lam : ℝ) (l : List (Sec ℝ)) (L R : ℝ × ℝ),
    Ok M W a l b → |lam| ≤ M → 0 < sz L → 0 < sz R → IsEigenvalue W l a b L R lam →
    ∃ σ : ℝ, |σ| = 1 ∧ ∀ (E : ℝ) (y dy : ℝ → ℝ), C * |E - lam| ≤ 1 → SolvesMesh W E l y dy → y a = L.1 → dy a = L.2 →
      (lam ≤ E → sz L * sz R * (E - lam) ≤ C * (σ * (dy b * R.1 - R.2 * y b))) ∧
      (E ≤ lam → sz L * sz R * (lam - E) ≤ C * (-σ * (dy b * R.1 - R.2 * y b))) := by
  obtain ⟨C2, ρ, hC2, ρ0, ρ1, sens⟩ := sensitivity M hM
  have iρ : 0 < 1 / ρ := by positivity
  refine ⟨C2 + 1 / ρ, by linarith, ?_⟩
  intro W a b lam l L R ok hlam szL szR heig
  have hlam1 : |lam| ≤ M + 1 := by linarith
  obtain ⟨f, df, hfam⟩ := exists_family hM ok L
  obtain ⟨z1, z2, z3⟩ := hfam lam hlam1
  have hS : 0 < sz L * sz R := by positivity
  have vz := zero_of_isEigenvalue (K := 3 * M) (by linarith) (ok.okMesh hM hlam1) heig z1 z2 z3
  have zL : sz (f lam a, df lam a) = sz L := by rw [z2, z3]
  obtain ⟨s, hs1, hs⟩ := sens W a b lam l R (f lam) (df lam) ok hlam szR (by rw [zL]; exact szL) z1 (by
    rw [vz, abs_zero, mul_zero, zL]; exact hS.le)
  rw [zL] at hs
  refine ⟨s, hs1, ?_⟩
  intro E y dy hE h1 h2 h3
  have a0 : 0 ≤ |E - lam| := abs_nonneg _
  have hρ : |E - lam| ≤ ρ := by
    have e1 : 1 / ρ * |E - lam| ≤ 1 := le_trans (mul_le_mul_of_nonneg_right (by linarith) a0) hE
    rw [one_div_mul_eq_div, div_le_iff₀ ρ0, one_mul] at e1
    exact e1
  obtain ⟨p, q⟩ := hs E y dy hρ (by rw [vz, abs_zero, mul_zero]; positivity) h1 (by rw [h2, z2]) (by rw [h3, z3])
  have up : ∀ {A t : ℝ}, 0 ≤ A → A ≤ C2 * t → A ≤ (C2 + 1 / ρ) * t := by
    intro A t hA h
    have : 0 ≤ t := nonneg_of_mul_nonneg_right (hA.trans h) (by linarith)
    have := mul_nonneg iρ.le this
    linarith [add_mul C2 (1 / ρ) t]
  exact ⟨fun h => up (mul_nonneg hS.le (by linarith)) (p h), fun h => up (mul_nonneg hS.le (by linarith)) (q h)⟩

end Verif.Solver

namespace Verif.Fp
open Verif.Mesh Verif.YT Verif.CalcT Verif.Propag Verif.Solver Verif.Spec Verif.Legendre

/-- one rounding -/
theorem fl_near {fl : ℝ → ℝ} {u mu x x' A S : ℝ} (hr : Rounding u mu fl) (hu : 0 ≤ u) (hS : mu ≤ S) (hA : 1 ≤ A) (hS0 : 0 ≤ S) (hx : |x| ≤ A * S) {d : ℝ} (hd : |x - x'| ≤ d) :
    |fl x - x'| ≤ d + u * (A * S) := by
  have h1 : max |x| mu ≤ A * S := max_le hx (hS.trans (le_mul_of_one_le_left hS0 hA))
  have h2 := (hr.err x).trans (mul_le_mul_of_nonneg_left h1 hu)
  have : fl x - x' = (fl x - x) + (x - x') := by ring
  rw [this]; exact (abs_add_le _ _).trans (by linarith)

set_option maxHeartbeats 1600000 in
/-- The matching error in finite precision. -/
theorem matching_fl (M : ℝ) (hM : 1 ≤ M) : ∃ C : ℝ, 1 ≤ C ∧ ∀ (fl : ℝ → ℝ) (H u mu σ τ ε : ℝ) (W : Sec ℝ → ℝ → ℝ) (dmin dmax eps : Fl fl) (r : BuildResult (Fl fl))
    (eta : ℕ → Fl fl → ℕ → Fl fl) (vs : Sec (Fl fl) → ℕ → Fl fl) (th : Fl fl → Fl fl → Fl fl → Y (Fl fl) → Fl fl) (pru : Fl fl → Fl fl → Fl fl → Fl fl → Y (Fl fl) → Y (Fl fl) → Fl fl)
    (pi E : Fl fl) (useH : Bool) (left right : Y (Fl fl)) (yL dyL yR dyR : ℝ → ℝ),
    FlFit M H u mu σ τ (6 * M * H) W dmin dmax eps r.sectors eta vs → 0 ≤ σ → τ + r.sectors.length * (u + σ) ≤ ε → ε ≤ 1 / 8 → dmax.val - dmin.val ≤ M → |E.val| ≤ M →
    r.matchIndex < r.sectors.length → mu ≤ sz (pr (valY left)) → mu ≤ sz (pr (valY right)) → mu ≤ sz (pr (valY left)) * sz (pr (valY right)) →
    SolvesMesh W E.val (realMesh r.sectors) yL dyL → yL dmin.val = left.y.val → dyL dmin.val = left.dy.val →
    SolvesMesh W E.val (realMesh r.sectors) yR dyR → yR dmax.val = right.y.val → dyR dmax.val = right.dy.val →
    ∃ err, (constructGen eps eta th pru vs dmin dmax r).matchingError pi E left right useH = .ok err ∧ ∀ x ∈ Set.Icc dmin.val dmax.val,
      |err.1.val - (dyL x * yR x - dyR x * yL x)| ≤ C * (H ^ ord useH + ε) * (sz (pr (valY left)) * sz (pr (valY right))) := by
  obtain ⟨C, hC, key⟩ := converge_fl M hM
  set g := Real.exp (2 * M * M) * Real.exp (2 * M * M) with hg
  have hg1 : 1 ≤ Real.exp (2 * M * M) := Real.one_le_exp (by positivity)
  have hgg : 1 ≤ g := one_le_mul_of_one_le_of_one_le hg1 hg1
  obtain ⟨K, hK⟩ : ∃ K, K = (g + 4 * C) ^ 2 := ⟨_, rfl⟩
  have hK1 : 1 ≤ K := by rw [hK]; nlinarith
  have big : 1 ≤ 2 * (2 * C * (2 * g + 4 * C)) + 6 * K := by nlinarith
  refine ⟨2 * (2 * C * (2 * g + 4 * C)) + 6 * K, big, ?_⟩
  intro fl H u mu σ τ ε W dmin dmax eps r eta vs th pru pi E useH left right yL dyL yR dyR hF hσ0 hε hε1 hd hE hm muL muR muLR hL l1 l2 hR r1 r2
  have hf := hF.fit
  have hH0 := fit_pos hf
  have ok := fit_okMesh hf hE
  have hab := (chn_range ok.chn ok.pos).1
  set P := constructGen eps eta th pru vs dmin dmax r with hP
  obtain ⟨v0M, hsecs⟩ : ∃ v0, P.secs = r.sectors.map (fun s => sectorGen eps eta th pru (vs s) v0 s) := ⟨_, rfl⟩
  have hlen : r.matchIndex < P.secs.length := by rw [hsecs, List.length_map]; exact hm
  have hmi : P.matchIndex = r.matchIndex := rfl
  set s := r.sectors[r.matchIndex] with hsd
  have hsm : s ∈ r.sectors := List.getElem_mem hm
  have hsm' : realSec s ∈ realMesh r.sectors := List.mem_map_of_mem hsm
  have hget : P.secs[P.matchIndex]? = some (sectorGen eps eta th pru (vs s) v0M s) := by
    rw [hmi, List.getElem?_eq_getElem hlen]
    simp only [hsecs, List.getElem_map, hsd]
  have hmx : (sectorGen eps eta th pru (vs s) v0M s).max = s.max := rfl
  set m := s.max with hmdef
  have rs := (chn_range ok.chn ok.pos).2 _ hsm'
  have ps := ok.pos _ hsm'
  have em : (realSec s).max = m.val := rfl
  rw [em] at rs ps
  have mI : m.val ∈ Set.Icc dmin.val dmax.val := ⟨by linarith, rs.2⟩
  have aI : dmin.val ∈ Set.Icc dmin.val dmax.val := ⟨le_rfl, hab⟩
  have bI : dmax.val ∈ Set.Icc dmin.val dmax.val := ⟨hab, le_rfl⟩
  have bm : IsBoundary (bounds (realMesh r.sectors)) m.val := (boundary_of_mem hsm').2
  have ba : IsBoundary (bounds (realMesh r.sectors)) dmin.val := by
    rw [← hf.mesh.first]; exact (boundary_of_mem (List.getElem_mem _)).1
  have bb : IsBoundary (bounds (realMesh r.sectors)) dmax.val := by
    rw [← hf.mesh.last]; exact (boundary_of_mem (List.getElem_mem _)).2
  obtain ⟨resL, eL, nL⟩ := key fl H u mu σ τ ε W dmin dmax eps r eta vs th pru pi E dmin m useH yL dyL left hF hσ0 hε hε1 hd hE hL ba bm
  obtain ⟨resR, eR, nR⟩ := key fl H u mu σ τ ε W dmin dmax eps r eta vs th pru pi E dmax m useH yR dyR right hF hσ0 hε hε1 hd hE hR bb bm
  set SL := sz (pr (valY left)) with hSL
  set SR := sz (pr (valY right)) with hSR
  have zL : sz (pr (valY left) - (yL dmin.val, dyL dmin.val)) = 0 := by rw [l1, l2]; simp [pr, sz, valY]
  have zR : sz (pr (valY right) - (yR dmax.val, dyR dmax.val)) = 0 := by rw [r1, r2]; simp [pr, sz, valY]
  have pL : sz (yL dmin.val, dyL dmin.val) = SL := by rw [l1, l2]; rfl
  have pR : sz (yR dmax.val, dyR dmax.val) = SR := by rw [r1, r2]; rfl
  rw [zL, pL, zero_add] at nL
  rw [zR, pR, zero_add] at nR
  have hpm : P.dmin = dmin := rfl
  have hpM : P.dmax = dmax := rfl
  refine ⟨(resL.1.dy * resR.1.y - resR.1.dy * resL.1.y,
      resL.1.dyE * resR.1.y + resL.1.dy * resR.1.yE - (resR.1.dyE * resL.1.y + resR.1.dy * resL.1.yE),
      resL.2 - resR.2), ?_, ?_⟩
  · unfold Prob.matchingError
    rw [hget]
    simp only [hmx, hpm, hpM]
    rw [eL, eR]
    rfl
  intro x hx
  have w1 := wronskR (hL.right ok) (hR.right ok) hx
  have w2 := wronskR (hL.right ok) (hR.right ok) mI
  have wx : dyL x * yR x - dyR x * yL x = dyL m.val * yR m.val - dyR m.val * yL m.val := by linarith [mul_comm (dyR x) (yL x), mul_comm (dyR m.val) (yL m.val)]
  rw [wx]
  have hx0 : ∀ t ∈ Set.Icc dmin.val dmax.val, Real.exp (2 * M * (t - dmin.val)) ≤ Real.exp (2 * M * M) := fun t ht =>
    Real.exp_le_exp.mpr (mul_le_mul_of_nonneg_left (by linarith [ht.2]) (by linarith))
  have gL : sz (yL m.val, dyL m.val) ≤ g * SL := by
    have h1 := (mesh_growth (by linarith) ok hL m.val mI).1
    rw [pL] at h1
    refine h1.trans (mul_le_mul_of_nonneg_right ((hx0 m.val mI).trans ?_) (sz_nonneg _))
    rw [hg]; exact le_mul_of_one_le_left (by linarith) hg1
  have gR : sz (yR m.val, dyR m.val) ≤ g * SR := by
    have h1 := (mesh_growth (by linarith) ok hR m.val mI).1
    have h2 := (mesh_growth (by linarith) ok hR dmax.val bI).2
    rw [pR] at h2
    rw [hg, mul_assoc]
    refine h1.trans (mul_le_mul (hx0 m.val mI) (h2.trans (mul_le_mul_of_nonneg_right (hx0 dmax.val bI) (sz_nonneg _))) (sz_nonneg _) (by linarith))
  have SL0 : 0 ≤ SL := sz_nonneg _
  have SR0 : 0 ≤ SR := sz_nonneg _
  set e := 2 * C * (H ^ ord useH + ε) with hedef
  have hu0 := hF.u0
  have hτ0 : 0 ≤ τ := (hF.coeff _ hsm).nonneg
  have hN1 : (1 : ℝ) ≤ r.sectors.length := by exact_mod_cast (show 0 < r.sectors.length by omega)
  have huε : u ≤ ε := by
    have : u + σ ≤ r.sectors.length * (u + σ) := le_mul_of_one_le_left (by linarith) hN1
    linarith
  have hε0 : 0 ≤ ε := by linarith
  have hHp : 0 ≤ H ^ ord useH := by positivity
  have e0 : 0 ≤ e := by positivity
  have eC : e ≤ 4 * C := by
    have : H ^ ord useH ≤ 1 := pow_le_one₀ hH0.le hf.small
    have : H ^ ord useH + ε ≤ 2 := by linarith
    rw [hedef]; nlinarith
  have nL : sz (pr (valY resL.1) - (yL m.val, dyL m.val)) ≤ e * SL := by
    refine nL.trans ?_
    have h1 : SL + mu ≤ 2 * SL := by linarith
    have h2 := mul_le_mul_of_nonneg_left h1 (show 0 ≤ C * (H ^ ord useH + ε) by positivity)
    rw [hedef]; linarith
  have nR : sz (pr (valY resR.1) - (yR m.val, dyR m.val)) ≤ e * SR := by
    refine nR.trans ?_
    have h1 : SR + mu ≤ 2 * SR := by linarith
    have h2 := mul_le_mul_of_nonneg_left h1 (show 0 ≤ C * (H ^ ord useH + ε) by positivity)
    rw [hedef]; linarith
  have nL1 := (le_sz1 _).trans nL
  have nL2 := (le_sz2 _).trans nL
  have nR1 := (le_sz1 _).trans nR
  have nR2 := (le_sz2 _).trans nR
  simp only [pr, valY, Prod.fst_sub, Prod.snd_sub] at nL1 nL2 nR1 nR2
  have gL1 := (le_sz1 _).trans gL
  have gL2 := (le_sz2 _).trans gL
  have gR1 := (le_sz1 _).trans gR
  have gR2 := (le_sz2 _).trans gR
  simp only at gL1 gL2 gR1 gR2
  have g0 : 0 ≤ g := by linarith
  set S := SL * SR with hS
  have S0 : 0 ≤ S := mul_nonneg SL0 SR0
  have q1 := prod_near g0 e0 eC SL0 SR0 gL2 gR1 nL2 nR1
  have q2 := prod_near g0 e0 eC SR0 SL0 gR2 gL1 nR2 nL1
  rw [mul_comm SR SL, ← hS] at q2
  rw [← hS] at q1
  have sizeb : ∀ {p p' G : ℝ}, 0 ≤ G → |p'| ≤ g * G → |p - p'| ≤ e * G → |p| ≤ (g + 4 * C) * G := by
    intro p p' G hG h1 h2
    have : p = p' + (p - p') := by ring
    rw [this]
    have := mul_le_mul_of_nonneg_right eC hG
    exact (abs_add_le _ _).trans (by linarith)
  have c4 : 0 ≤ g + 4 * C := by linarith
  have m1 : |resL.1.dy.val * resR.1.y.val| ≤ K * S := by
    rw [abs_mul]
    refine (mul_le_mul (sizeb SL0 gL2 nL2) (sizeb SR0 gR1 nR1) (abs_nonneg _) (by positivity)).trans (le_of_eq ?_)
    rw [hK, hS]; ring
  have m2 : |resR.1.dy.val * resL.1.y.val| ≤ K * S := by
    rw [abs_mul]
    refine (mul_le_mul (sizeb SR0 gR2 nR2) (sizeb SL0 gL1 nL1) (abs_nonneg _) (by positivity)).trans (le_of_eq ?_)
    rw [hK, hS]; ring
  have f1 := fl_near hF.r hu0 muLR hK1 S0 m1 q1
  have f2 := fl_near hF.r hu0 muLR hK1 S0 m2 q2
  have o1 := fl_near hF.r hu0 muLR hK1 S0 m1 (d := 0) (x' := resL.1.dy.val * resR.1.y.val) (by simp)
  have o2 := fl_near hF.r hu0 muLR hK1 S0 m2 (d := 0) (x' := resR.1.dy.val * resL.1.y.val) (by simp)
  set p1 := fl (resL.1.dy.val * resR.1.y.val) with hp1
  set p2 := fl (resR.1.dy.val * resL.1.y.val) with hp2
  have KS0 : 0 ≤ K * S := mul_nonneg (by linarith) S0
  have uK : u * (K * S) ≤ K * S := mul_le_of_le_one_left KS0 (by linarith)
  have a1 : |p1| ≤ 2 * (K * S) := by
    have : p1 = (p1 - resL.1.dy.val * resR.1.y.val) + resL.1.dy.val * resR.1.y.val := by ring
    rw [this]; exact (abs_add_le _ _).trans (by linarith)
  have a2 : |p2| ≤ 2 * (K * S) := by
    have : p2 = (p2 - resR.1.dy.val * resL.1.y.val) + resR.1.dy.val * resL.1.y.val := by ring
    rw [this]; exact (abs_add_le _ _).trans (by linarith)
  have a3 : |p1 - p2| ≤ (4 * K) * S := (abs_sub _ _).trans (by linarith)
  have a4 : |p1 - p2 - (dyL m.val * yR m.val - dyR m.val * yL m.val)| ≤ 2 * (e * (2 * g + 4 * C) * S + u * (K * S)) := by
    have : p1 - p2 - (dyL m.val * yR m.val - dyR m.val * yL m.val) = (p1 - dyL m.val * yR m.val) - (p2 - dyR m.val * yL m.val) := by ring
    rw [this]; exact (abs_sub _ _).trans (by linarith)
  have fin := fl_near hF.r hu0 muLR (show 1 ≤ 4 * K by linarith) S0 a3 a4
  change |fl (p1 - p2) - _| ≤ _
  refine fin.trans ?_
  have uS : u * (K * S) ≤ (H ^ ord useH + ε) * (K * S) := mul_le_mul_of_nonneg_right (by linarith) KS0
  have fe : (2 * (2 * C * (2 * g + 4 * C)) + 6 * K) * (H ^ ord useH + ε) * S = 2 * (e * (2 * g + 4 * C) * S) + 6 * ((H ^ ord useH + ε) * (K * S)) := by
    rw [hedef]; ring
  rw [fe]
  linarith

end Verif.Fp
