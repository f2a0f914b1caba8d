import Verif.Lemmas.EnergyDSector

/-!
# `propagate` follows the solution and its energy derivative
-/
namespace Verif.Solver
open Verif.Mesh Verif.YT Verif.CalcT Verif.Propag Verif.Formulas Verif.Legendre Verif.Spec

/-- **`propagate` between mesh points: solution and energy derivative.** -/
theorem propagate_dnear (M : ℝ) (hM : 1 ≤ M) : ∃ C : ℝ, 1 ≤ C ∧ ∀ (eps σ τ ε : ℝ) (eta : ℕ → ℝ → ℕ → ℝ) (vs : Sec ℝ → ℕ → ℝ) (W : Sec ℝ → ℝ → ℝ) (dmin dmax H E pi : ℝ) (r : BuildResult ℝ)
    (useH : Bool) (a b : ℝ) (c : Y ℝ) (y dy z dz : ℝ → ℝ),
    FitMesh eps M H W dmin dmax r.sectors → EtaWithin σ eta → CoeffsWithin τ W r.sectors vs → τ + r.sectors.length * σ ≤ ε → ε ≤ 1 →
    dmax - dmin ≤ M → |E| ≤ M →
    a ∈ Set.Icc dmin dmax → b ∈ Set.Icc dmin dmax → IsBoundary (bounds r.sectors) a → IsBoundary (bounds r.sectors) b →
    SolvesMesh W E r.sectors y dy → EnergyMesh W E r.sectors y z dz → pr c = (y a, dy a) → pe c = (z a, dz a) →
    ∃ res, (constructOf eps eta vs dmin dmax r).propagate pi E c a b useH = .ok res ∧
      sz (y b, dy b) ≤ C * sz (y a, dy a) ∧ sz (z b, dz b) ≤ C * (sz (z a, dz a) + sz (y a, dy a)) ∧
      sz (pr res.1 - (y b, dy b)) ≤ C * (H ^ ord useH + ε) * sz (y a, dy a) ∧
      sz (pe res.1 - (z b, dz b)) ≤ C * (H ^ ord useH + ε) * (sz (z a, dz a) + sz (y a, dy a)) := by
  obtain ⟨C, hC, key⟩ := sector_dstep M hM
  have hM0 : 0 ≤ M := by linarith
  obtain ⟨L, hL⟩ : ∃ L, L = 4 * M + 2 * C := ⟨_, rfl⟩
  have hL1 : 1 ≤ L := by linarith
  set Xb := L * (M + 1) with hXb
  have Xb1 : 1 ≤ Xb := by rw [hXb]; nlinarith
  refine ⟨Real.exp Xb * (C * M * (1 + Xb) + Xb), ?_, ?_⟩
  · refine one_le_mul_of_one_le_of_one_le (Real.one_le_exp (by linarith)) ?_
    have : 0 ≤ C * M * (1 + Xb) := by positivity
    linarith
  intro eps σ τ ε eta vs W dmin dmax H E pi r useH a b c y dy z dz hf he hv hε hε1 hd hE ha hb hba hbb hy hz hc1 hc2
  set P := constructOf eps eta vs dmin dmax r with hP
  have hPm : P.mesh = r.sectors := construct_mesh _ _ _ _ _ _
  have hPmin : P.dmin = dmin := rfl
  have hPmax : P.dmax = dmax := rfl
  have hm : IsMesh P.mesh P.dmin P.dmax := by rw [hPm]; exact hf.mesh
  obtain ⟨v0M, hsecs⟩ := construct_secs eps eta vs dmin dmax r
  rw [← hP] at hsecs
  have hA' : domainContains P.dmin P.dmax a = true := by rw [hPmin, hPmax]; simpa [domainContains] using ha
  have hB' : domainContains P.dmin P.dmax b = true := by rw [hPmin, hPmax]; simpa [domainContains] using hb
  obtain ⟨i, j, hi, hj, hia, hjb, hup, hdown, heq⟩ := propagate_closed P hm pi a b useH hA' hB'
  simp only [ccmp_le, ccmp_lt, decide_eq_true_eq, decide_eq_false_iff_not] at hup hdown
  obtain ⟨hlink, hin⟩ := walk_linked hm hi hj hia hjb hup hdown
  refine ⟨_, heq E c, ?_⟩
  rw [fold_fst]
  have hH0 : 0 < H := fit_pos hf
  have hH1 := hf.small
  have hσ0 := he.nonneg
  have hN0 : 0 < r.sectors.length := hf.mesh.length_pos
  have hτ0 : 0 ≤ τ := (hv _ (List.getElem_mem hN0)).nonneg
  have hN1 : (1 : ℝ) ≤ r.sectors.length := by exact_mod_cast hN0
  have hσN : σ ≤ r.sectors.length * σ := le_mul_of_one_le_left hσ0 hN1
  have hε0 : 0 ≤ ε := by linarith
  have hσ1 : σ ≤ 1 := by linarith
  have hτ1 : τ ≤ 1 := by linarith
  have bd : ∀ {x : ℝ}, IsBoundary (bounds r.sectors) x → ∀ s ∈ r.sectors, x ≤ s.min ∨ s.max ≤ x := by
    intro x hx s hs
    obtain ⟨s', hs', hx'⟩ := mesh_isBoundary hx
    obtain ⟨k, hk, rfl⟩ := List.getElem_of_mem hs
    obtain ⟨m, hm', rfl⟩ := List.getElem_of_mem hs'
    have l1 : k < P.secs.length := by rw [hsecs, List.length_map]; exact hk
    have l2 : m < P.secs.length := by rw [hsecs, List.length_map]; exact hm'
    have e1 : (P.secs[k]).toSec = r.sectors[k] := by simp only [hsecs, List.getElem_map]; rfl
    have e2 : (P.secs[m]).toSec = r.sectors[m] := by simp only [hsecs, List.getElem_map]; rfl
    have := mesh_point hm l2 l1 (x := x) (by rw [e2]; exact hx')
    rwa [e1] at this
  have sec : ∀ k ∈ visited i j, ((a ≤ b → pos P a k ≤ pos P b k) ∧ (b ≤ a → pos P b k ≤ pos P a k)) ∧
      DStep (fun c => P.stepY E useH a b c k) y dy z dz (pos P a k) (pos P b k) (L * (1 * |pos P b k - pos P a k| + σ))
        (C * ((H ^ ord useH + τ) * |pos P b k - pos P a k| + σ)) := by
    intro k hk
    obtain ⟨hk1, -⟩ := hin k hk
    have hkr : k < r.sectors.length := by rw [hsecs, List.length_map] at hk1; exact hk1
    have hsk : P.secs[k] = sectorOf eps eta (vs (r.sectors[k])) v0M (r.sectors[k]) := by
      simp only [hsecs, List.getElem_map]
    have hs : r.sectors[k] ∈ r.sectors := List.getElem_mem hkr
    set s := r.sectors[k]
    have hw := hf.wide s hs
    have hn := hf.narrow s hs
    have hh0 : 0 ≤ s.max - s.min := by have := hf.eps_nonneg; linarith
    have p1 : pos P a k = cl s.min s.max a := by rw [pos_eq P a hk1, hsk]; rfl
    have p2 : pos P b k = cl s.min s.max b := by rw [pos_eq P b hk1, hsk]; rfl
    have st := key eps σ τ eta (vs s) (W s) v0M E H s useH a b y dy z dz he hσ1 hτ1 hf.eps_nonneg hw hn hH1 (hf.smooth s hs) (hv s hs) hE (hf.directed s hs)
      (bd hba s hs) (bd hbb s hs) (hy s hs) (hz s hs)
    have e : ∀ F c, P.stepY F useH a b c k = ((sectorOf eps eta (vs s) v0M s).propagate F useH c a b).1 := by
      intro F c
      unfold Prob.stepY
      rw [List.getElem?_eq_getElem hk1]
      dsimp only
      rw [hsk]
    refine ⟨by rw [p1, p2]; exact ⟨cl_mono, cl_mono⟩, ?_⟩
    simp only [e, p1, p2, one_mul]
    rw [← hL] at st
    exact st
  have s0 := sz_nonneg (y a, dy a)
  have t0 := sz_nonneg (z a, dz a)
  set S := sz (y a, dy a) with hS
  set T := sz (z a, dz a) with hT
  have h0 : DInv S T 1 0 0 c (y a, dy a) (z a, dz a) := by
    refine ⟨s0, t0, le_rfl, le_rfl, le_rfl, by linarith, by linarith, ?_, ?_⟩ <;> simp [hc1, hc2, sz]
  have inv := h0.fold (visited i j) (fun k hk => (sec k hk).2) hlink
  have hX := sum_pos_le hlink (fun k hk => (sec k hk).1)
  have hX' : |b - a| ≤ M := by rw [abs_le]; constructor <;> linarith [ha.1, ha.2, hb.1, hb.2]
  have hlen : ((visited i j).length : ℝ) * σ ≤ ε := by
    have hiN : i < r.sectors.length := by rw [hsecs, List.length_map] at hi; exact hi
    have hjN : j < r.sectors.length := by rw [hsecs, List.length_map] at hj; exact hj
    have h2 : ((visited i j).length : ℝ) * σ ≤ r.sectors.length * σ :=
      mul_le_mul_of_nonneg_right (by exact_mod_cast visited_length hiN hjN) hσ0
    linarith
  rw [sum_affine, sum_affine, hX] at inv
  have lσ0 : 0 ≤ ((visited i j).length : ℝ) * σ := by positivity
  set X := 0 + L * (1 * |b - a| + (visited i j).length * σ) with hXd
  set R := 0 + C * ((H ^ ord useH + τ) * |b - a| + (visited i j).length * σ) with hRd
  set κ := H ^ ord useH + ε with hκ
  have κ0 : 0 ≤ κ := by positivity
  have X0 : 0 ≤ X := by positivity
  have R0 : 0 ≤ R := by positivity
  have Xle : X ≤ Xb := by
    rw [hXd, hXb, zero_add]
    exact mul_le_mul_of_nonneg_left (by linarith) (by linarith)
  have Rle : R ≤ C * M * κ := by
    rw [hRd, zero_add, mul_assoc]
    refine mul_le_mul_of_nonneg_left ?_ (by linarith)
    have a1 : H ^ ord useH + τ ≤ H ^ ord useH + τ := le_rfl
    have a2 := mul_le_mul_of_nonneg_left hX' (show 0 ≤ H ^ ord useH + τ by positivity)
    have a3 : r.sectors.length * σ ≤ M * (r.sectors.length * σ) := le_mul_of_one_le_left (by positivity) hM
    have a5 : (visited i j).length * σ ≤ r.sectors.length * σ := by
      have hiN : i < r.sectors.length := by rw [hsecs, List.length_map] at hi; exact hi
      have hjN : j < r.sectors.length := by rw [hsecs, List.length_map] at hj; exact hj
      exact mul_le_mul_of_nonneg_right (by exact_mod_cast visited_length hiN hjN) hσ0
    have a4 : M * (τ + r.sectors.length * σ) ≤ M * ε := mul_le_mul_of_nonneg_left hε hM0
    rw [hκ]
    linarith
  have eq0 : X = 0 + L * (1 * |b - a| + (visited i j).length * σ) := rfl
  have g1 : 1 * Real.exp (L * (1 * |b - a| + (visited i j).length * σ)) ≤ Real.exp Xb := by
    rw [one_mul]; refine Real.exp_le_exp.mpr ?_
    rw [zero_add] at eq0
    rw [← eq0]; exact Xle
  set g := 1 * Real.exp (L * (1 * |b - a| + (visited i j).length * σ)) with hg
  have g0 : 0 ≤ g := by positivity
  set Kc := C * M * (1 + Xb) + Xb with hKc
  have k0 : 0 ≤ C * M := by positivity
  have k1 : 0 ≤ C * M * (1 + Xb) := by positivity
  have K1 : 1 ≤ Kc := by linarith
  have K2 : Xb ≤ Kc := by linarith
  have K3 : C * M * (1 + Xb) ≤ Kc := by linarith
  have K4 : C * M ≤ Kc := by
    have : 0 ≤ C * M * Xb := by positivity
    have e : C * M * (1 + Xb) = C * M + C * M * Xb := by ring
    linarith
  have x0 := (Real.exp_pos Xb).le
  refine ⟨?_, ?_, ?_, ?_⟩
  · refine inv.u.trans (mul_le_mul_of_nonneg_right ?_ s0)
    exact g1.trans (le_mul_of_one_le_right x0 K1)
  · have a1 := mul_le_mul_of_nonneg_right (Xle.trans K2) s0
    have a2 : T ≤ Kc * T := le_mul_of_one_le_left t0 K1
    have a3 : T + X * S ≤ Kc * (T + S) := by linarith only [a1, a2]
    exact inv.w.trans ((mul_le_mul g1 a3 (by positivity) x0).trans (le_of_eq (by ring)))
  · have a3 := mul_le_mul g1 (Rle.trans (mul_le_mul_of_nonneg_right K4 κ0)) R0 x0
    refine inv.e.trans (mul_le_mul_of_nonneg_right (a3.trans (le_of_eq (by ring))) s0)
  · refine inv.q.trans ?_
    have a1 : T + (1 + X) * S ≤ (1 + Xb) * (T + S) := by
      have b1 := mul_le_mul_of_nonneg_right Xle s0
      have b2 : 0 ≤ Xb * T := by positivity
      linarith
    have a2 : R * (T + (1 + X) * S) ≤ Kc * κ * (T + S) := by
      have b1 := mul_le_mul Rle a1 (by positivity) (by positivity)
      have b2 := mul_le_mul_of_nonneg_right K3 (show 0 ≤ κ * (T + S) by positivity)
      have b3 : C * M * κ * ((1 + Xb) * (T + S)) = C * M * (1 + Xb) * (κ * (T + S)) := by ring
      linarith
    have a3 := mul_le_mul g1 a2 (by positivity) x0
    linarith

end Verif.Solver
