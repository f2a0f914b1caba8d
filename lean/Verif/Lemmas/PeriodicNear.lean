import Verif.Spec.Periodic
import Verif.Model.Periodic
import Verif.Props.EnergyConverge

/-!
# The determinant of a periodic problem
-/
namespace Verif.Solver
open Verif.Mesh Verif.YT Verif.CalcT Verif.Propag Verif.Formulas Verif.Legendre Verif.Spec

/-- One column of the error matrix, with its energy derivative. -/
theorem column_near (M : ℝ) (hM : 1 ≤ M) : ∃ C : ℝ, 1 ≤ C ∧ ∀ (eps σ τ ε : ℝ) (eta : ℕ → ℝ → ℕ → ℝ) (vs : Sec ℝ → ℕ → ℝ) (W : Sec ℝ → ℝ → ℝ) (dmin dmax H E pi : ℝ) (r : BuildResult ℝ)
    (useH : Bool) (m S : ℝ) (left right : ℝ × ℝ) (fL dfL fR dfR : ℝ → ℝ → ℝ),
    FitMesh eps M H W dmin dmax r.sectors → EtaWithin σ eta → CoeffsWithin τ W r.sectors vs → τ + r.sectors.length * σ ≤ ε → ε ≤ 1 →
    dmax - dmin ≤ M → |E| ≤ M → m ∈ Set.Icc dmin dmax → IsBoundary (bounds r.sectors) m →
    (∀ F, SolvesMesh W F r.sectors (fL F) (dfL F)) → (∀ F, fL F dmin = left.1 ∧ dfL F dmin = left.2) →
    (∀ F, SolvesMesh W F r.sectors (fR F) (dfR F)) → (∀ F, fR F dmax = right.1 ∧ dfR F dmax = right.2) → sz left ≤ S → sz right ≤ S →
    ∃ L R z dz, (constructOf eps eta vs dmin dmax r).propagate pi E ⟨left.1, left.2, 0, 0⟩ dmin m useH = .ok L ∧
      (constructOf eps eta vs dmin dmax r).propagate pi E ⟨right.1, right.2, 0, 0⟩ dmax m useH = .ok R ∧
      HasDerivAt (fun F => fL F m - fR F m) z E ∧ HasDerivAt (fun F => dfL F m - dfR F m) dz E ∧
      sz (fL E m - fR E m, dfL E m - dfR E m) ≤ C * S ∧ sz (z, dz) ≤ C * S ∧
      sz (pr (Periodic.ySub L.1 R.1) - (fL E m - fR E m, dfL E m - dfR E m)) ≤ C * (H ^ ord useH + ε) * S ∧
      sz (pe (Periodic.ySub L.1 R.1) - (z, dz)) ≤ C * (H ^ ord useH + ε) * S := by
  obtain ⟨C, hC, key⟩ := propagate_dnear M hM
  refine ⟨2 * C, by linarith, ?_⟩
  intro eps σ τ ε eta vs W dmin dmax H E pi r useH m S left right fL dfL fR dfR hf he hv hε hε1 hd hE mI bm hL iL hR iR sL sR
  have C0 : 0 < C := by linarith
  have ok := fit_okMesh hf hE
  have hab := (chn_range ok.chn ok.pos).1
  have aI : dmin ∈ Set.Icc dmin dmax := ⟨le_rfl, hab⟩
  have bI : dmax ∈ Set.Icc dmin dmax := ⟨hab, le_rfl⟩
  have ba : IsBoundary (bounds r.sectors) dmin := by
    rw [← hf.mesh.first]; exact (boundary_of_mem (List.getElem_mem _)).1
  have bb : IsBoundary (bounds r.sectors) dmax := by
    rw [← hf.mesh.last]; exact (boundary_of_mem (List.getElem_mem _)).2
  have cst : ∀ {g : ℝ → ℝ} {c : ℝ}, (∀ F, g F = c) → HasDerivAt g 0 E := by
    intro g c h
    rw [show g = fun _ => c from funext h]; exact hasDerivAt_const _ _
  obtain ⟨zL, dzL, eL, zL1, zL2, dL⟩ := family_deriv hM hf hE hL aI (cst fun F => (iL F).1) (cst fun F => (iL F).2)
  obtain ⟨zR, dzR, eR, zR1, zR2, dR⟩ := family_deriv hM hf hE hR bI (cst fun F => (iR F).1) (cst fun F => (iR F).2)
  obtain ⟨L, e1, u1, u2, u3, u4⟩ := key eps σ τ ε eta vs W dmin dmax H E pi r useH dmin m ⟨left.1, left.2, 0, 0⟩ (fL E) (dfL E) zL dzL hf he hv hε hε1 hd hE aI mI ba bm (hL E) eL
    (by rw [(iL E).1, (iL E).2]; rfl) (by rw [zL1, zL2]; rfl)
  obtain ⟨R, f1, v1, v2, v3, v4⟩ := key eps σ τ ε eta vs W dmin dmax H E pi r useH dmax m ⟨right.1, right.2, 0, 0⟩ (fR E) (dfR E) zR dzR hf he hv hε hε1 hd hE bI mI bb bm (hR E) eR
    (by rw [(iR E).1, (iR E).2]; rfl) (by rw [zR1, zR2]; rfl)
  have z00 : sz ((0 : ℝ), (0 : ℝ)) = 0 := by simp [sz]
  rw [(iL E).1, (iL E).2] at u1 u2 u3 u4
  rw [zL1, zL2, z00, zero_add] at u2 u4
  rw [(iR E).1, (iR E).2] at v1 v2 v3 v4
  rw [zR1, zR2, z00, zero_add] at v2 v4
  have κ0 : 0 ≤ H ^ ord useH + ε := by
    have hH0 := fit_pos hf
    have h1 := (hv _ (List.getElem_mem hf.mesh.length_pos)).nonneg
    have h2 := mul_nonneg (Nat.cast_nonneg (α := ℝ) r.sectors.length) he.nonneg
    have := pow_nonneg hH0.le (ord useH)
    linarith
  have tri : ∀ {p q : ℝ × ℝ} {a : ℝ}, sz p ≤ a → sz q ≤ a → sz (p - q) ≤ 2 * a := by
    intro p q a h1 h2
    have := sz_tri p 0 q
    rw [sub_zero, sz_sub_comm 0 q, sub_zero] at this
    linarith
  have cS : C * sz left ≤ C * S := mul_le_mul_of_nonneg_left sL C0.le
  have cS' : C * sz right ≤ C * S := mul_le_mul_of_nonneg_left sR C0.le
  have kS : C * (H ^ ord useH + ε) * sz left ≤ C * (H ^ ord useH + ε) * S := mul_le_mul_of_nonneg_left sL (by positivity)
  have kS' : C * (H ^ ord useH + ε) * sz right ≤ C * (H ^ ord useH + ε) * S := mul_le_mul_of_nonneg_left sR (by positivity)
  refine ⟨L, R, zL m - zR m, dzL m - dzR m, e1, f1, (dL m mI).1.sub (dR m mI).1, (dL m mI).2.sub (dR m mI).2, ?_, ?_, ?_, ?_⟩
  · have := tri (u1.trans cS) (v1.trans cS')
    rw [← mul_assoc] at this; exact this
  · have := tri (u2.trans cS) (v2.trans cS')
    rw [← mul_assoc] at this; exact this
  · have := tri (u3.trans kS) (v3.trans kS')
    rw [show pr (Periodic.ySub L.1 R.1) - (fL E m - fR E m, dfL E m - dfR E m) = (pr L.1 - (fL E m, dfL E m)) - (pr R.1 - (fR E m, dfR E m)) by
      ext <;> simp [pr, Periodic.ySub] <;> ring]
    rw [show 2 * C * (H ^ ord useH + ε) * S = 2 * (C * (H ^ ord useH + ε) * S) by ring]; exact this
  · have := tri (u4.trans kS) (v4.trans kS')
    rw [show pe (Periodic.ySub L.1 R.1) - (zL m - zR m, dzL m - dzR m) = (pe L.1 - (zL m, dzL m)) - (pe R.1 - (zR m, dzR m)) by
      ext <;> simp [pe, Periodic.ySub] <;> ring]
    rw [show 2 * C * (H ^ ord useH + ε) * S = 2 * (C * (H ^ ord useH + ε) * S) by ring]; exact this

/-- Families of solutions through given values at the end of the domain. -/
theorem end_family {eps M H : ℝ} (hM : 1 ≤ M) {W : Sec ℝ → ℝ → ℝ} {dmin dmax : ℝ} {secs : List (Sec ℝ)} (hf : FitMesh eps M H W dmin dmax secs) {x : ℝ} (hx : x ∈ Set.Icc dmin dmax) (u : ℝ × ℝ) :
    ∃ f df : ℝ → ℝ → ℝ, (∀ F, SolvesMesh W F secs (f F) (df F)) ∧ ∀ F, f F x = u.1 ∧ df F x = u.2 := by
  have h : ∀ F : ℝ, ∃ p : (ℝ → ℝ) × (ℝ → ℝ), SolvesMesh W F secs p.1 p.2 ∧ p.1 x = u.1 ∧ p.2 x = u.2 := fun F => by
    obtain ⟨y, dy, h1, h2, h3⟩ := mesh_exists_at (okMesh_any hf hM F) hx u
    exact ⟨(y, dy), h1, h2, h3⟩
  choose p hp using h
  exact ⟨fun F => (p F).1, fun F => (p F).2, fun F => (hp F).1, fun F => (hp F).2⟩

theorem fundamental_exists {eps M H : ℝ} (hM : 1 ≤ M) {W : Sec ℝ → ℝ → ℝ} {dmin dmax : ℝ} {secs : List (Sec ℝ)} (hf : FitMesh eps M H W dmin dmax secs) :
    ∃ c dc s ds, Fundamental W secs dmin c dc s ds := by
  have ok := okMesh_any hf hM 0
  have hab := (chn_range ok.chn ok.pos).1
  obtain ⟨c, dc, h1, h2⟩ := end_family hM hf (x := dmin) ⟨le_rfl, hab⟩ (1, 0)
  obtain ⟨s, ds, h3, h4⟩ := end_family hM hf (x := dmin) ⟨le_rfl, hab⟩ (0, 1)
  exact ⟨c, dc, s, ds, h1, h3, h2, h4⟩

/-- The determinant of the error matrix, at any point of the domain, is `-2 det (Φ - K)`. -/
theorem exact_det {K : ℝ} {W : Sec ℝ → ℝ → ℝ} {F : ℝ} {l : List (Sec ℝ)} {a b : ℝ} (ok : OkMesh K W F a l b) {c dc s ds z1 dz1 z2 dz2 : ℝ → ℝ} (k : M2 ℝ)
    (hc : SolvesMesh W F l c dc) (hs : SolvesMesh W F l s ds) (h1 : SolvesMesh W F l z1 dz1) (h2 : SolvesMesh W F l z2 dz2)
    (e1 : z1 b = k.a + k.b ∧ dz1 b = k.c + k.d) (e2 : z2 b = k.a - k.b ∧ dz2 b = k.c - k.d) {m : ℝ} (hm : m ∈ Set.Icc a b) :
    bl (c m - s m - z2 m, dc m - ds m - dz2 m) (c m + s m - z1 m, dc m + ds m - dz1 m) = -2 * perDet k (c b) (dc b) (s b) (ds b) := by
  have q1 := (hc.comb hs 1 1).comb h1 1 (-1)
  have q2 := (hc.comb hs 1 (-1)).comb h2 1 (-1)
  have hab := (chn_range ok.chn ok.pos).1
  have w1 := wronskR (q2.right ok) (q1.right ok) hm
  have w2 := wronskR (q2.right ok) (q1.right ok) (x := b) ⟨hab, le_rfl⟩
  rw [← w2, e1.1, e1.2, e2.1, e2.2] at w1
  unfold bl perDet
  linear_combination w1

theorem bl_deriv {u1 u2 v1 v2 : ℝ → ℝ} {u1' u2' v1' v2' E : ℝ} (h1 : HasDerivAt u1 u1' E) (h2 : HasDerivAt u2 u2' E) (h3 : HasDerivAt v1 v1' E) (h4 : HasDerivAt v2 v2' E) :
    HasDerivAt (fun F => bl (u1 F, u2 F) (v1 F, v2 F)) (bl (u1 E, u2 E) (v1', v2') + bl (u1', u2') (v1 E, v2 E)) E :=
  ((h2.mul h3).sub (h4.mul h1)).congr_deriv (by simp only [bl]; ring)

theorem det_near (M : ℝ) (hM : 1 ≤ M) : ∃ C : ℝ, 1 ≤ C ∧ ∀ (eps ε : ℝ) (eta : ℕ → ℝ → ℕ → ℝ) (vs : Sec ℝ → ℕ → ℝ) (W : Sec ℝ → ℝ → ℝ) (dmin dmax H E pi : ℝ) (r : BuildResult ℝ)
    (useH : Bool) (k : M2 ℝ) (c dc s ds : ℝ → ℝ → ℝ),
    FitMesh eps M H W dmin dmax r.sectors → AccurateTo ε W r.sectors eta vs → dmax - dmin ≤ M → |E| ≤ M → r.matchIndex < r.sectors.length → EntriesLe M k →
    Fundamental W r.sectors dmin c dc s ds →
    ∃ err d, Periodic.matchingError (constructOf eps eta vs dmin dmax r) k pi E useH = .ok err ∧
      |(Periodic.determinant err.1).1 - -2 * perDet k (c E dmax) (dc E dmax) (s E dmax) (ds E dmax)| ≤ C * (H ^ (if useH then 16 else 14) + ε) ∧
      HasDerivAt (fun F => -2 * perDet k (c F dmax) (dc F dmax) (s F dmax) (ds F dmax)) d E ∧
      |(Periodic.determinant err.1).2 - d| ≤ C * (H ^ (if useH then 16 else 14) + ε) := by
  obtain ⟨C, hC, key⟩ := column_near M hM
  have C0 : 0 < C := by linarith
  have one : 1 ≤ 8 * C * C * (2 * M * (2 * M)) := by
    have h1 : 1 ≤ C * C := one_le_mul_of_one_le_of_one_le hC hC
    have h2 : 1 ≤ M * M := one_le_mul_of_one_le_of_one_le hM hM
    nlinarith
  refine ⟨2 * (8 * C * C * (2 * M * (2 * M))), by linarith, ?_⟩
  intro eps ε eta vs W dmin dmax H E pi r useH k c dc s ds hf ⟨hε1, σ, τ, he, hv, hε⟩ hd hE hm hk ⟨solC, solS, iC, iS⟩
  have hH0 := fit_pos hf
  have ok := fit_okMesh hf hE
  have hab := (chn_range ok.chn ok.pos).1
  obtain ⟨P, hP⟩ : ∃ P, P = constructOf eps eta vs dmin dmax r := ⟨_, rfl⟩
  obtain ⟨v0M, hsecs⟩ := construct_secs eps eta vs dmin dmax r
  rw [← hP] at hsecs
  have hlen : r.matchIndex < P.secs.length := by rw [hsecs, List.length_map]; exact hm
  have hmi : P.matchIndex = r.matchIndex := by rw [hP]; rfl
  obtain ⟨t, hsd⟩ : ∃ t, t = r.sectors[r.matchIndex] := ⟨_, rfl⟩
  have hsm : t ∈ r.sectors := by rw [hsd]; exact List.getElem_mem hm
  have hget : P.secs[P.matchIndex]? = some (sectorOf eps eta (vs t) v0M t) := by
    rw [hmi, List.getElem?_eq_getElem hlen]
    simp only [hsecs, List.getElem_map, hsd]
  have hmx : (sectorOf eps eta (vs t) v0M t).max = t.max := rfl
  have rs := (chn_range ok.chn ok.pos).2 t hsm
  have ps := ok.pos t hsm
  obtain ⟨m, hmdef⟩ : ∃ m, m = t.max := ⟨_, rfl⟩
  have mI : m ∈ Set.Icc dmin dmax := by rw [hmdef]; exact ⟨by linarith, rs.2⟩
  have bm : IsBoundary (bounds r.sectors) m := by rw [hmdef]; exact (boundary_of_mem hsm).2
  have hpm : P.dmin = dmin := by rw [hP]; rfl
  have hpM : P.dmax = dmax := by rw [hP]; rfl
  obtain ⟨z1, dz1, s1, i1⟩ := end_family hM hf (x := dmax) ⟨hab, le_rfl⟩ (k.a + k.b, k.c + k.d)
  obtain ⟨z2, dz2, s2, i2⟩ := end_family hM hf (x := dmax) ⟨hab, le_rfl⟩ (k.a - k.b, k.c - k.d)
  have M2 : ∀ {x y : ℝ}, |x| ≤ M → |y| ≤ M → |x + y| ≤ 2 * M ∧ |x - y| ≤ 2 * M := by
    intro x y h1 h2
    have a := abs_add_le x y
    have b := abs_sub x y
    exact ⟨by linarith, by linarith⟩
  obtain ⟨L1, R1, w1, dw1, l1, r1, d1, d1', b1, b1', n1, n1'⟩ := key eps σ τ ε eta vs W dmin dmax H E pi r useH m (2 * M) (1, 1) (k.a + k.b, k.c + k.d)
    (fun F x => c F x + s F x) (fun F x => dc F x + ds F x) z1 dz1 hf he hv hε hε1 hd hE mI bm
    (fun F => by simpa using (solC F).comb (solS F) 1 1) (fun F => by simp [(iC F).1, (iC F).2, (iS F).1, (iS F).2]) s1 i1
    (sz_le (by simp; linarith) (by simp; linarith)) (sz_le (M2 hk.1 hk.2.1).1 (M2 hk.2.2.1 hk.2.2.2).1)
  obtain ⟨L2, R2, w2, dw2, l2, r2, d2, d2', b2, b2', n2, n2'⟩ := key eps σ τ ε eta vs W dmin dmax H E pi r useH m (2 * M) (1, -1) (k.a - k.b, k.c - k.d)
    (fun F x => c F x - s F x) (fun F x => dc F x - ds F x) z2 dz2 hf he hv hε hε1 hd hE mI bm
    (fun F => by simpa [sub_eq_add_neg] using (solC F).comb (solS F) 1 (-1)) (fun F => by simp [(iC F).1, (iC F).2, (iS F).1, (iS F).2]) s2 i2
    (sz_le (by simp; linarith) (by simp; linarith)) (sz_le (M2 hk.1 hk.2.1).2 (M2 hk.2.2.1 hk.2.2.2).2)
  rw [← hP] at l1 r1 l2 r2
  have me : Periodic.matchingError P k pi E useH = .ok ((Periodic.ySub L1.1 R1.1, Periodic.ySub L2.1 R2.1), ((L1.2 - R1.2) / pi, (L2.2 - R2.2) / pi)) := by
    unfold Periodic.matchingError
    rw [hget]
    simp only [hmx, hpm, hpM, Periodic.initialValue, Periodic.idM, ← hmdef]
    have q1 : (⟨1 * 1 + 0 * 1, 0 * 1 + 1 * 1, 0, 0⟩ : Y ℝ) = ⟨1, 1, 0, 0⟩ := by congr 1 <;> ring
    have q2 : (⟨1 * 1 + 0 * -1, 0 * 1 + 1 * -1, 0, 0⟩ : Y ℝ) = ⟨1, -1, 0, 0⟩ := by congr 1 <;> ring
    have q3 : (⟨k.a * 1 + k.b * 1, k.c * 1 + k.d * 1, 0, 0⟩ : Y ℝ) = ⟨k.a + k.b, k.c + k.d, 0, 0⟩ := by congr 1 <;> ring
    have q4 : (⟨k.a * 1 + k.b * -1, k.c * 1 + k.d * -1, 0, 0⟩ : Y ℝ) = ⟨k.a - k.b, k.c - k.d, 0, 0⟩ := by congr 1 <;> ring
    rw [q1, q2, q3, q4, l1, l2, r1, r2]
    rfl
  have hε0 : 0 ≤ ε := by
    have h1 := (hv t hsm).nonneg
    have h2 := mul_nonneg (Nat.cast_nonneg (α := ℝ) r.sectors.length) he.nonneg
    linarith
  have ed : ∀ F, -2 * perDet k (c F dmax) (dc F dmax) (s F dmax) (ds F dmax) =
      bl (c F m - s F m - z2 F m, dc F m - ds F m - dz2 F m) (c F m + s F m - z1 F m, dc F m + ds F m - dz1 F m) := fun F =>
    (exact_det (okMesh_any hf hM F) k (solC F) (solS F) (s1 F) (s2 F) (i1 F) (i2 F) mI).symm
  have κ0 : 0 ≤ H ^ ord useH + ε := by positivity
  have κ2 : H ^ ord useH + ε ≤ 2 := by
    have : H ^ ord useH ≤ 1 := pow_le_one₀ hH0.le hf.small
    linarith
  have M0 : (0 : ℝ) ≤ 2 * M := by linarith
  have hCκ : C * (H ^ ord useH + ε) ≤ 2 * C := by nlinarith
  have hCκ0 : 0 ≤ C * (H ^ ord useH + ε) := by positivity
  refine ⟨_, bl (c E m - s E m - z2 E m, dc E m - ds E m - dz2 E m) (w1, dw1) + bl (w2, dw2) (c E m + s E m - z1 E m, dc E m + ds E m - dz1 E m), hP ▸ me, ?_, ?_, ?_⟩
  · show _ ≤ _ * (H ^ ord useH + ε)
    rw [ed E, show (Periodic.determinant (Periodic.ySub L1.1 R1.1, Periodic.ySub L2.1 R2.1)).1 = bl (pr (Periodic.ySub L2.1 R2.1)) (pr (Periodic.ySub L1.1 R1.1)) by
      simp only [Periodic.determinant, bl, pr]; ring]
    refine (bl_near C0.le hCκ0 hCκ M0 M0 b2 b1 n2 n1).trans ?_
    have : 0 ≤ 8 * C * (C * (H ^ ord useH + ε)) * (2 * M * (2 * M)) := by positivity
    linarith only [this, show 2 * (8 * C * C * (2 * M * (2 * M))) * (H ^ ord useH + ε) = 2 * (8 * C * (C * (H ^ ord useH + ε)) * (2 * M * (2 * M))) by ring]
  · rw [show (fun F => -2 * perDet k (c F dmax) (dc F dmax) (s F dmax) (ds F dmax)) = _ from funext ed]
    exact bl_deriv d2 d2' d1 d1'
  · show _ ≤ _ * (H ^ ord useH + ε)
    rw [show (Periodic.determinant (Periodic.ySub L1.1 R1.1, Periodic.ySub L2.1 R2.1)).2 =
      bl (pr (Periodic.ySub L2.1 R2.1)) (pe (Periodic.ySub L1.1 R1.1)) + bl (pe (Periodic.ySub L2.1 R2.1)) (pr (Periodic.ySub L1.1 R1.1)) by
      simp only [Periodic.determinant, bl, pr, pe]; ring]
    have h1 := bl_near C0.le hCκ0 hCκ M0 M0 b2 b1' n2 n1'
    have h2 := bl_near C0.le hCκ0 hCκ M0 M0 b2' b1 n2' n1
    rw [add_sub_add_comm]
    refine (abs_add_le _ _).trans ((add_le_add h1 h2).trans (le_of_eq (by ring)))

/-- The solution with given initial values is a combination of the fundamental ones. -/
theorem solution_comb {K : ℝ} (hK : 1 ≤ K) {W : Sec ℝ → ℝ → ℝ} {F : ℝ} {l : List (Sec ℝ)} {a b : ℝ} (ok : OkMesh K W F a l b) {c dc s ds y dy : ℝ → ℝ}
    (hc : SolvesMesh W F l c dc) (hs : SolvesMesh W F l s ds) (ic : c a = 1 ∧ dc a = 0) (is : s a = 0 ∧ ds a = 1) (hy : SolvesMesh W F l y dy) {x : ℝ} (hx : x ∈ Set.Icc a b) :
    y x = y a * c x + dy a * s x ∧ dy x = y a * dc x + dy a * ds x := by
  have hab := (chn_range ok.chn ok.pos).1
  have q := hy.comb (hc.comb hs (y a) (dy a)) 1 (-1)
  have := mesh_zero hK ok q (x0 := a) ⟨le_rfl, hab⟩ (by simp [sz, ic.1, ic.2, is.1, is.2]) hx
  constructor
  · linarith [this.1]
  · linarith [this.2]

/-- `det (Φ - K) = 0` exactly at the eigenvalues. -/
theorem perDet_zero {K : ℝ} (hK : 1 ≤ K) {W : Sec ℝ → ℝ → ℝ} {F : ℝ} {l : List (Sec ℝ)} {a b : ℝ} (hlt : a < b) (ok : OkMesh K W F a l b) {c dc s ds : ℝ → ℝ} (k : M2 ℝ)
    (hc : SolvesMesh W F l c dc) (hs : SolvesMesh W F l s ds) (ic : c a = 1 ∧ dc a = 0) (is : s a = 0 ∧ ds a = 1) :
    perDet k (c b) (dc b) (s b) (ds b) = 0 ↔ IsPeriodicEigenvalue W l a b k F := by
  have hab := (chn_range ok.chn ok.pos).1
  have bI : b ∈ Set.Icc a b := ⟨hab, le_rfl⟩
  have aI : a ∈ Set.Icc a b := ⟨le_rfl, hab⟩
  constructor
  · intro h
    have ker : ∃ α β : ℝ, (α ≠ 0 ∨ β ≠ 0) ∧ (c b - k.a) * α + (s b - k.b) * β = 0 ∧ (dc b - k.c) * α + (ds b - k.d) * β = 0 := by
      unfold perDet at h
      by_cases h1 : c b - k.a = 0 ∧ s b - k.b = 0
      · by_cases h2 : dc b - k.c = 0 ∧ ds b - k.d = 0
        · exact ⟨1, 0, .inl one_ne_zero, by rw [h1.1]; ring, by rw [h2.1]; ring⟩
        · refine ⟨-(ds b - k.d), dc b - k.c, ?_, by rw [h1.1, h1.2]; ring, by ring⟩
          by_contra q; push Not at q
          exact h2 ⟨q.2, by linarith [q.1]⟩
      · refine ⟨-(s b - k.b), c b - k.a, ?_, by ring, by linarith⟩
        by_contra q; push Not at q
        exact h1 ⟨q.2, by linarith [q.1]⟩
    obtain ⟨α, β, hne, k1, k2⟩ := ker
    have q := hc.comb hs α β
    refine ⟨_, _, q, ?_, ?_⟩
    · by_contra hz
      push Not at hz
      have e0 := hz a aI
      simp only [ic.1, is.1, mul_one, mul_zero, add_zero] at e0
      have hβ : β ≠ 0 := by rcases hne with h | h; · exact absurd e0 h
                            · exact h
      cases l with
      | nil => exact hlt.ne ok.chn
      | cons t l =>
        have e := ok.chn.1
        have ht := ok.pos t (by simp)
        have r := ((chn_range ok.chn ok.pos).2 t (by simp)).2
        have hd := (q t (by simp)).d1 t.min ⟨le_rfl, ht.le⟩
        have sub : ∀ x ∈ Set.Icc t.min t.max, x ∈ Set.Icc a b := fun x hx => ⟨by rw [← e]; exact hx.1, hx.2.trans r⟩
        have hu : UniqueDiffWithinAt ℝ (Set.Icc t.min t.max) t.min := (uniqueDiffOn_Icc ht) _ ⟨le_rfl, ht.le⟩
        have h0 := (hasDerivWithinAt_const t.min (Set.Icc t.min t.max) (0 : ℝ)).congr (fun x hx => hz x (sub x hx)) (hz _ (sub _ ⟨le_rfl, ht.le⟩))
        have := hu.eq_deriv _ hd h0
        rw [e, ic.2, is.2] at this
        exact hβ (by linarith)
    · simp only [Joined, ic.1, ic.2, is.1, is.2, mul_one, mul_zero, add_zero, zero_add]
      exact ⟨by linarith, by linarith⟩
  · rintro ⟨y, dy, hy, ⟨x, hx, hxy⟩, j1, j2⟩
    obtain ⟨e1, e2⟩ := solution_comb hK ok hc hs ic is hy bI
    rw [e1] at j1
    rw [e2] at j2
    have hne : y a ≠ 0 ∨ dy a ≠ 0 := by
      by_contra q; push Not at q
      exact hxy (mesh_zero hK ok hy aI (by simp [sz, q.1, q.2]) hx).1
    unfold perDet
    rcases hne with h | h
    · refine (mul_eq_zero.mp (?_ : y a * _ = 0)).resolve_left h
      linear_combination (ds b - k.d) * j1 - (s b - k.b) * j2
    · refine (mul_eq_zero.mp (?_ : dy a * _ = 0)).resolve_left h
      linear_combination (c b - k.a) * j2 - (dc b - k.c) * j1

end Verif.Solver
