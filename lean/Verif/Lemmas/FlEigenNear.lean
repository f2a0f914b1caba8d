import Verif.Lemmas.FlEigenSteps
import Verif.Props.EigenConverge

/-!
# The eigenfunction in finite precision: nearness to the exact normalised eigenfunction
-/
namespace Verif.Fp
open Verif.Mesh Verif.YT Verif.CalcT Verif.Propag Verif.Solver Verif.Spec Verif.Legendre Verif.Eigen

/-- A scaled value with a rounded scaling. -/
theorem value_fl {ς β k C2 e1 ρ c e2 e3 e4 mu : ℝ} {v p p' yA yx ux : ℝ × ℝ} (hς : ς = 1 ∨ ς = -1) (C20 : 0 ≤ C2) (hρ : 0 ≤ ρ) (hk : |k - 1| ≤ e3) (e31 : e3 ≤ 2)
    (hv : sz (v - (ς * β * k) • yx) ≤ C2 * (sz (p' - (ς * β * k) • yA) + ρ * (sz ((ς * β * k) • yA) + mu))) (hp' : sz (p' - (ς * β * k) • p) ≤ e4) (hmu : mu ≤ c)
    (hp : |β| * sz (p - yA) ≤ e1) (hA : sz (β • yA) ≤ 2 * c) (hx : sz (β • yx - ux) ≤ e2) (hu : sz ux ≤ c) :
    sz (v - ς • ux) ≤ C2 * (e4 + 3 * e1 + ρ * (7 * c)) + (3 * e2 + e3 * c) := by
  have aς : |ς| = 1 := by rcases hς with h | h <;> rw [h] <;> simp
  have ak : |k| ≤ 3 := by
    have := abs_add_le (k - 1) 1
    rw [abs_one, sub_add_cancel] at this
    linarith
  have e10 : 0 ≤ e1 := (mul_nonneg (abs_nonneg _) (sz_nonneg _)).trans hp
  have c0 : 0 ≤ c := (sz_nonneg _).trans hu
  have e30 : 0 ≤ e3 := (abs_nonneg _).trans hk
  have b1 : sz ((ς * β * k) • p - (ς * β * k) • yA) ≤ 3 * e1 := by
    rw [← smul_sub, sz_smul, abs_mul, abs_mul, aς, one_mul]
    have := mul_le_mul ak hp (mul_nonneg (abs_nonneg _) (sz_nonneg _)) (by norm_num)
    linarith [show |β| * |k| * sz (p - yA) = |k| * (|β| * sz (p - yA)) by ring]
  have b2 : sz ((ς * β * k) • yA) ≤ 6 * c := by
    rw [show (ς * β * k) • yA = (ς * k) • (β • yA) by rw [smul_smul]; congr 1; ring, sz_smul, abs_mul, aς, one_mul]
    have := mul_le_mul ak hA (sz_nonneg _) (by norm_num)
    linarith
  have b3 : sz ((ς * β * k) • yx - ς • ux) ≤ 3 * e2 + e3 * c := by
    have e : (ς * β * k) • yx - ς • ux = ς • (k • (β • yx - ux) + (k - 1) • ux) := by
      ext <;> simp <;> ring
    rw [e, sz_smul, aς, one_mul]
    refine (sz_add _ _).trans ?_
    rw [sz_smul, sz_smul]
    exact add_le_add (mul_le_mul ak hx (sz_nonneg _) (by norm_num)) (mul_le_mul hk hu (sz_nonneg _) e30)
  have b4 := sz_tri v ((ς * β * k) • yx) (ς • ux)
  have b6 := sz_tri p' ((ς * β * k) • p) ((ς * β * k) • yA)
  have b5 : C2 * (sz (p' - (ς * β * k) • yA) + ρ * (sz ((ς * β * k) • yA) + mu)) ≤ C2 * (e4 + 3 * e1 + ρ * (7 * c)) :=
    mul_le_mul_of_nonneg_left (add_le_add (by linarith) (mul_le_mul_of_nonneg_left (by linarith) hρ)) C20
  linarith

/-- a column scaled by a rounded factor -/
theorem smul_fl {fl : ℝ → ℝ} {u mu w b : ℝ} (hA : Arith u mu w fl) (hb : 1 ≤ b) (c : Y (Fl fl)) {k : Fl fl} {g : ℝ} (hk : k.val = g) (hg : |g| ≤ 3 * b) (hc : sz (pr (valY c)) ≤ b) :
    sz (pr (valY (c.smul k)) - g • pr (valY c)) ≤ 3 * b ^ 2 * u := by
  have u0 := hA.u0
  have hm1 := hA.mu1
  have one : ∀ x : Fl fl, |x.val| ≤ b → |fl (x.val * k.val) - g * x.val| ≤ 3 * b ^ 2 * u := by
    intro x hx
    have e := hA.r.err (x.val * k.val)
    have m : max |x.val * k.val| mu ≤ 3 * b ^ 2 := by
      refine max_le ?_ (by nlinarith)
      rw [hk, abs_mul]
      calc |x.val| * |g| ≤ b * (3 * b) := mul_le_mul hx hg (abs_nonneg _) (by linarith)
        _ = _ := by ring
    rw [show g * x.val = x.val * k.val by rw [hk]; ring]
    have := e.trans (mul_le_mul_of_nonneg_left m u0)
    linarith
  have h1 := one c.y ((le_sz1 _).trans hc)
  have h2 := one c.dy ((le_sz2 _).trans hc)
  simp only [sz, pr, valY, Y.smul, Prod.fst_sub, Prod.snd_sub, Prod.smul_fst, Prod.smul_snd, smul_eq_mul]
  exact max_le h1 h2

/-- the mesh points -/
theorem mesh_points {fl : ℝ → ℝ} {l : List (Sec (Fl fl))} {dmin dmax : Fl fl} (h : IsMesh (realMesh l) dmin.val dmax.val) :
    ∃ p : ℕ → ℝ, p 0 = dmin.val ∧ p l.length = dmax.val ∧ (∀ k, k ≤ l.length → p k ∈ Set.Icc dmin.val dmax.val) ∧
      ∀ k (hk : k < l.length), (l[k]).min.val = p k ∧ (l[k]).max.val = p (k + 1) := by
  obtain ⟨Q, hQ⟩ : ∃ Q, Q = constructOf 0 etaR (fun _ _ => 0) dmin.val dmax.val ⟨realMesh l, 0⟩ := ⟨_, rfl⟩
  have hQm : Q.mesh = realMesh l := by rw [hQ]; exact construct_mesh _ _ _ _ _ _
  have h1 : Q.dmin = dmin.val := by rw [hQ]; rfl
  have h2 : Q.dmax = dmax.val := by rw [hQ]; rfl
  have hm : IsMesh Q.mesh Q.dmin Q.dmax := by rw [hQm, h1, h2]; exact h
  have hlen : Q.secs.length = l.length := by rw [← mesh_length, hQm]; unfold realMesh; rw [List.length_map]
  have get : ∀ k (hk : k < l.length), (Q.secs[k]'(by omega)).min = (l[k]).min.val ∧ (Q.secs[k]'(by omega)).max = (l[k]).max.val := by
    intro k hk
    have e : (Q.secs[k]'(by omega)).toSec = realSec l[k] := by
      have := mesh_get Q k (by omega)
      rw [← this]
      simp only [hQm, realMesh, List.getElem_map]
    exact ⟨congrArg Sec.min e, congrArg Sec.max e⟩
  refine ⟨pt Q, h1, ?_, ?_, ?_⟩
  · rw [← hlen, pt_last hm, h2]
  · intro k hk
    have := pt_in hm (show k ≤ Q.secs.length by omega)
    rwa [h1, h2] at this
  · intro k hk
    obtain ⟨g1, g2⟩ := get k hk
    rw [← g1, ← g2]
    exact ⟨pt_min hm _, pt_max Q _⟩

set_option maxHeartbeats 3200000 in
theorem eigen_values_near_fl (M : ℝ) (hM : 1 ≤ M) : ∃ C : ℝ, 1 ≤ C ∧ ∀ (fl : ℝ → ℝ) (H ur mu σ τ ε a : ℝ) (W : Sec ℝ → ℝ → ℝ) (dmin dmax eps : Fl fl) (r : BuildResult (Fl fl))
    (eta : ℕ → Fl fl → ℕ → Fl fl) (vs : Sec (Fl fl) → ℕ → Fl fl) (th : Fl fl → Fl fl → Fl fl → Y (Fl fl) → Fl fl) (pru : Fl fl → Fl fl → Fl fl → Fl fl → Y (Fl fl) → Y (Fl fl) → Fl fl)
    (sqrt : Fl fl → Fl fl) (E : Fl fl) (left right : Y (Fl fl)) (lam : ℝ) (u du : ℝ → ℝ),
    FlFit M H ur mu σ τ (6 * M * H) W dmin dmax eps r.sectors eta vs → 0 ≤ σ → τ + r.sectors.length * (ur + σ) ≤ ε → ε ≤ 1 / 8 → 0 ≤ a → a ≤ ε →
    (∀ x : Fl fl, 0 < x.val → |(sqrt x).val - Real.sqrt x.val| ≤ a * max (Real.sqrt x.val) mu) → dmax.val - dmin.val ≤ M → 1 / M ≤ dmax.val - dmin.val → |lam| ≤ M → |E.val| ≤ M →
    r.matchIndex < r.sectors.length → 1 / M ≤ sz (left.y.val, left.dy.val) → sz (left.y.val, left.dy.val) ≤ M → 1 / M ≤ sz (right.y.val, right.dy.val) → sz (right.y.val, right.dy.val) ≤ M →
    left.yE.val = 0 → left.dyE.val = 0 → right.yE.val = 0 → right.dyE.val = 0 →
    IsEigenfunction W (realMesh r.sectors) dmin.val dmax.val (left.y.val, left.dy.val) (right.y.val, right.dy.val) lam u du →
    C * (H ^ 16 + ε + |E.val - lam|) ≤ 1 →
    ∃ f ς, eigenfunction sqrt (constructGen eps eta th pru vs dmin dmax r) E left right = .ok f ∧ f.WF ∧ f.dmin = dmin ∧ f.dmax = dmax ∧ (ς = 1 ∨ ς = -1) ∧
      ∀ x : Fl fl, dmin.val ≤ x.val → x.val ≤ dmax.val → ∀ v, f.IsValueAt x v →
        |v.1.val - ς * u x.val| ≤ C * (H ^ 15 + ε + eps.val + |E.val - lam|) ∧ |v.2.val - ς * du x.val| ≤ C * (H ^ 15 + ε + eps.val + |E.val - lam|) := by
  obtain ⟨C1', hC1', chain⟩ := eigen_chain_fl M hM
  obtain ⟨C2, hC2, inside⟩ := inside_fl M hM
  obtain ⟨C3, hC3, side⟩ := exact_side M hM
  obtain ⟨c, hc, nb⟩ := normalised_bounds M hM
  obtain ⟨C1, hC1d⟩ : ∃ C1, C1 = C1' * (1 + M) := ⟨_, rfl⟩
  have hC1 : 1 ≤ C1 := by rw [hC1d]; exact one_le_mul_of_one_le_of_one_le hC1' (by linarith)
  obtain ⟨K, hK⟩ : ∃ K, K = 8 * (C1 + C3) ^ 2 * c ^ 2 * M := ⟨_, rfl⟩
  obtain ⟨b, hb⟩ : ∃ b, b = c * M + C3 * M + C1 * M := ⟨_, rfl⟩
  have c0 : 0 < c := by linarith
  have C10 : 0 < C1 := by linarith
  have C30 : 0 < C3 := by linarith
  have C20 : 0 < C2 := by linarith
  have M0 : 0 < M := by linarith
  have K0 : 0 < K := by rw [hK]; positivity
  have hcM : 1 ≤ c * M := one_le_mul_of_one_le_of_one_le hc hM
  have cMb : c * M ≤ b := by
    have : 0 < C3 * M := by positivity
    have : 0 < C1 * M := by positivity
    linarith
  have b1 : 1 ≤ b := hcM.trans cMb
  have sMb : C3 * M + C1 * M ≤ b := by linarith
  have cc : c ≤ c ^ 2 := by nlinarith
  have KC : (C1 + C3) * c ≤ K := by
    have k1 : C1 + C3 ≤ 8 * (C1 + C3) ^ 2 := by nlinarith
    have k2 : (C1 + C3) * c ≤ 8 * (C1 + C3) ^ 2 * c ^ 2 := mul_le_mul k1 cc c0.le (by positivity)
    rw [hK]
    exact k2.trans (le_mul_of_one_le_right (by positivity) hM)
  have KC1 : C1 * c ≤ K := le_trans (mul_le_mul_of_nonneg_right (by linarith) c0.le) KC
  have KC3 : C3 * c ≤ K := le_trans (mul_le_mul_of_nonneg_right (by linarith) c0.le) KC
  have K1 : 1 ≤ K := le_trans (one_le_mul_of_one_le_of_one_le hC1 hc) KC1
  obtain ⟨G, hG⟩ : ∃ G, G = 10 ^ 8 * (c * b ^ 10) * (K + 2) := ⟨_, rfl⟩
  have G0 : 0 < G := by rw [hG]; positivity
  have GK : K ≤ G := by
    have h1 : 1 ≤ 10 ^ 8 * (c * b ^ 10) := one_le_mul_of_one_le_of_one_le (by norm_num) (one_le_mul_of_one_le_of_one_le hc (one_le_pow₀ b1))
    have := le_mul_of_one_le_left (show 0 ≤ K + 2 by linarith) h1
    rw [hG]; linarith
  obtain ⟨D, hD⟩ : ∃ D, D = 3 * C2 * b ^ 2 + 3 * C2 * C1 * c + 7 * c * C2 + 3 * C3 * c + G * c := ⟨_, rfl⟩
  have D0 : 0 ≤ D := by rw [hD]; positivity
  refine ⟨G + D, by linarith, ?_⟩
  intro fl H ur mu σ τ ε a W dmin dmax eps r eta vs th pru sqrt E left right lam u du hF hσ0 hε hε8 ha0 haε hsq hd hd' hlam hEM hm hl hl' hr hr' l3 l4 r3 r4 heig hsmall
  have hf := hF.fit
  have hH0 := fit_pos hf
  have sm := List.getElem_mem hm
  have hτ0 : 0 ≤ τ := (hF.coeff _ sm).nonneg
  have hur0 := hF.u0
  have hw0 : 0 ≤ ur + σ := by linarith
  have hwε : τ + (ur + σ) ≤ ε := by
    have h1 : (1 : ℝ) ≤ r.sectors.length := by exact_mod_cast (show 1 ≤ r.sectors.length by omega)
    have := le_mul_of_one_le_left hw0 h1
    linarith
  have hε0 : 0 ≤ ε := by linarith
  have hA : Arith ur mu (ur + σ) fl := hF.arith hσ0 (by linarith) sm
  have mu1 := hA.mu1
  have mu0 := hA.mu0
  obtain ⟨δ, hδ⟩ : ∃ δ, δ = |E.val - lam| := ⟨_, rfl⟩
  obtain ⟨κ, hκ⟩ : ∃ κ, κ = H ^ 16 + ε := ⟨_, rfl⟩
  have δ0 : 0 ≤ δ := by rw [hδ]; exact abs_nonneg _
  have κ0 : 0 ≤ κ := by rw [hκ]; positivity
  have εκ : ε ≤ κ := by rw [hκ]; have : 0 ≤ H ^ 16 := by positivity
                        linarith
  rw [← hδ, ← hκ] at hsmall
  have hGκ : G * (κ + δ) ≤ 1 := le_trans (mul_le_mul_of_nonneg_right (by linarith) (by positivity)) hsmall
  have hKκ : K * (κ + δ) ≤ 1 := le_trans (mul_le_mul_of_nonneg_right GK (by positivity)) hGκ
  have κδ1 : κ + δ ≤ 1 := (le_mul_of_one_le_left (by positivity) K1).trans hKκ
  have C3δ : C3 * δ ≤ 1 := by
    have k1 : C3 ≤ K := by
      have : C3 * 1 ≤ (C1 + C3) * c := mul_le_mul (by linarith) hc (by norm_num) (by positivity)
      linarith
    have := mul_le_mul_of_nonneg_right k1 δ0
    linarith only [this, mul_nonneg K0.le κ0, hKκ]
  have hab : dmin.val ≤ dmax.val := by have : 0 < 1 / M := by positivity
                                       linarith
  have aI : dmin.val ∈ Set.Icc dmin.val dmax.val := ⟨le_rfl, hab⟩
  have bI : dmax.val ∈ Set.Icc dmin.val dmax.val := ⟨hab, le_rfl⟩
  have ub := nb 0 W dmin.val dmax.val H lam (realMesh r.sectors) u du hf hd hd' hlam heig.solves heig.norm
  have pos1M : 0 < 1 / M := by positivity
  have nz : ∀ y : Y (Fl fl), 1 / M ≤ sz (y.y.val, y.dy.val) → y.y.val ≠ 0 ∨ y.dy.val ≠ 0 := by
    intro y hy
    by_contra h
    push Not at h
    rw [h.1, h.2] at hy
    simp [sz] at hy
    linarith
  -- the factors
  obtain ⟨α, a1, a2⟩ := exists_factor (a := (u dmin.val, du dmin.val)) (b := (left.y.val, left.dy.val)) (nz left hl) heig.left
  obtain ⟨β, b1', b2'⟩ := exists_factor (a := (u dmax.val, du dmax.val)) (b := (right.y.val, right.dy.val)) (nz right hr) heig.right
  simp only at a1 a2 b1' b2'
  have factor : ∀ (γ x0 : ℝ) (s : ℝ × ℝ), x0 ∈ Set.Icc dmin.val dmax.val → u x0 = γ * s.1 → du x0 = γ * s.2 → 1 / M ≤ sz s → sz s ≤ M →
      γ ≠ 0 ∧ |γ| * sz s ≤ c ∧ |γ| ≤ b ∧ |γ⁻¹| ≤ b ∧ sz s + mu ≤ (1 + M) * sz s := by
    intro γ x0 s hx0 h1 h2 h3 h4
    have e : (u x0, du x0) = γ • s := by ext <;> simp [h1, h2]
    have hu := ub x0 hx0
    rw [e, sz_smul] at hu
    have p1 : 0 < 1 / c := by positivity
    have hγ : γ ≠ 0 := by
      intro h
      rw [h, abs_zero, zero_mul] at hu
      linarith [hu.2]
    have g0 : 0 < |γ| := abs_pos.mpr hγ
    have q1 : |γ| * (1 / M) ≤ c := (mul_le_mul_of_nonneg_left h3 g0.le).trans hu.1
    have q2 : 1 / c ≤ |γ| * M := hu.2.trans (mul_le_mul_of_nonneg_left h4 g0.le)
    refine ⟨hγ, hu.1, ?_, ?_, ?_⟩
    · rw [mul_one_div, div_le_iff₀ M0] at q1
      exact q1.trans cMb
    · rw [abs_inv]
      refine le_trans ?_ cMb
      rw [inv_le_iff_one_le_mul₀ g0]
      rw [div_le_iff₀ c0] at q2
      linarith
    · have : 1 ≤ M * sz s := by
        rw [div_le_iff₀ M0] at h3
        linarith
      linarith
  obtain ⟨hα, szα, αb, αi, smL⟩ := factor α dmin.val (left.y.val, left.dy.val) aI a1 a2 hl hl'
  obtain ⟨hβ, szβ, βb, βi, smR⟩ := factor β dmax.val (right.y.val, right.dy.val) bI b1' b2' hr hr'
  -- the exact solutions at the energy `E`
  obtain ⟨yL, dyL, zL, dzL, sL, eL, yL1, yL2, zL1, zL2, bL⟩ := side 0 W dmin.val dmax.val H E.val lam (realMesh r.sectors) u du (left.y.val, left.dy.val) α dmin.val hf hd hEM hlam heig.solves aI a1 a2
  obtain ⟨yR, dyR, zR, dzR, sR, eR, yR1, yR2, zR1, zR2, bR⟩ := side 0 W dmin.val dmax.val H E.val lam (realMesh r.sectors) u du (right.y.val, right.dy.val) β dmax.val hf hd hEM hlam heig.solves bI b1' b2'
  rw [← hδ] at bL bR
  obtain ⟨p, p0, pN, hpt, hpk⟩ := mesh_points hf.mesh
  obtain ⟨P, hP⟩ : ∃ P, P = constructGen eps eta th pru vs dmin dmax r := ⟨_, rfl⟩
  obtain ⟨⟨QL, qL1, qL2, qL3⟩, -⟩ := chain fl H ur mu σ τ ε W dmin dmax eps r eta vs th pru E yL dyL zL dzL p hF hσ0 hε hε8 hd hEM sL eL p0 pN hpt hpk P hP
  obtain ⟨-, ⟨QR, qR1, qR2, qR3⟩⟩ := chain fl H ur mu σ τ ε W dmin dmax eps r eta vs th pru E yR dyR zR dzR p hF hσ0 hε hε8 hd hEM sR eR p0 pN hpt hpk P hP
  rw [yL1, yL2] at qL2 qL3
  rw [zL1, zL2] at qL2 qL3
  rw [yR1, yR2] at qR2 qR3
  rw [zR1, zR2] at qR2 qR3
  rw [← hκ] at qL3 qR3
  have sz00 : sz ((0 : ℝ), (0 : ℝ)) = 0 := by simp [sz]
  rw [sz00, zero_add] at qL3 qR3
  have fold : ∀ {x s : ℝ}, x ≤ C1' * κ * (s + mu) → s + mu ≤ (1 + M) * s → x ≤ C1 * κ * s := by
    intro x s h1 h2
    refine h1.trans ((mul_le_mul_of_nonneg_left h2 (mul_nonneg (by linarith) κ0)).trans (le_of_eq ?_))
    rw [hC1d]; ring
  obtain ⟨v0P, hsP⟩ : ∃ v0, P.secs = r.sectors.map (fun s => sectorGen eps eta th pru (vs s) v0 s) := by rw [hP]; exact ⟨_, rfl⟩
  have hPm : P.mesh = r.sectors := by
    rw [hP]
    show List.map PSec.toSec (r.sectors.map _) = _
    rw [List.map_map]; exact List.map_id r.sectors
  have hPmin : P.dmin = dmin := by rw [hP]; rfl
  have hPmax : P.dmax = dmax := by rw [hP]; rfl
  have hmesh : IsMesh P.mesh P.dmin P.dmax := by rw [hPm, hPmin, hPmax]; exact isMesh_fl hf.mesh
  have hlen : P.secs.length = r.sectors.length := by rw [hsP, List.length_map]
  have hmi : P.matchIndex = r.matchIndex := by rw [hP]; rfl
  have hPM : P.matchIndex < P.secs.length := by rw [hmi, hlen]; exact hm
  obtain ⟨steps, yl, yr, st1, st2, ql, qr, st3⟩ := steps_ind_fl QL QR hPM qL1 qR1 (qL2 left rfl (by simp [pe, valY, l3, l4])) (qR2 right rfl (by simp [pe, valY, r3, r4])) sqrt
  obtain ⟨f, f1, f2, f3, f4, f5⟩ := eigen_values_fl hmesh st1 st2
  obtain ⟨m, hmdef⟩ : ∃ m, m = p (P.matchIndex + 1) := ⟨_, rfl⟩
  have mI : m ∈ Set.Icc dmin.val dmax.val := by rw [hmdef]; exact hpt _ (by omega)
  obtain ⟨nl1, nl2⟩ := qL3 _ yl (by omega) ql
  obtain ⟨nr1, nr2⟩ := qR3 _ yr (by omega) qr
  rw [← hmdef] at nl1 nl2 nr1 nr2
  replace nl1 := fold nl1 smL
  replace nl2 := fold nl2 smL
  replace nr1 := fold nr1 smR
  replace nr2 := fold nr2 smR
  -- sizes
  have size : ∀ {x y : ℝ × ℝ} {s : ℝ}, 0 ≤ s → s ≤ M → sz (x - y) ≤ C1 * κ * s → sz y ≤ C3 * s → sz x ≤ b := by
    intro x y s s0 hs h1 h2
    have k1 := sz_le_add x y
    have k2 : C1 * κ * s ≤ C1 * M := by
      have : C1 * κ * s ≤ C1 * 1 * s := mul_le_mul_of_nonneg_right (mul_le_mul_of_nonneg_left (by linarith) C10.le) s0
      have := mul_le_mul_of_nonneg_left hs C10.le
      linarith
    have k3 : C3 * s ≤ C3 * M := mul_le_mul_of_nonneg_left hs C30.le
    linarith only [k1, k2, k3, h1, h2, sMb]
  have zl1 := size (sz_nonneg _) hl' nl1 (bL m mI).2.1
  have zl2 := size (sz_nonneg _) hl' nl2 (bL m mI).2.2
  have zr1 := size (sz_nonneg _) hr' nr1 (bR m mI).2.1
  have zr2 := size (sz_nonneg _) hr' nr2 (bR m mI).2.2
  -- exact parts of the norm
  have okE := okMesh_all hf hM (F := E.val) (by linarith)
  have okl := okMesh_all hf hM (F := lam) (by linarith)
  have iL : bl (yL m, dyL m) (zL m, dzL m) = ∫ t in dmin.val..m, yL t * yL t := by
    have := energy_integral (sL.right okE) (energyMesh_right okE eL) le_rfl mI.1 mI.2
    rw [zL1, zL2] at this
    rw [← this]; simp only [bl]; ring
  have iR : bl (yR m, dyR m) (zR m, dzR m) = -∫ t in m..dmax.val, yR t * yR t := by
    have := energy_integral (sR.right okE) (energyMesh_right okE eR) mI.1 mI.2 le_rfl
    rw [zR1, zR2] at this
    rw [← this]; simp only [bl]; ring
  have cu := (heig.solves.right okl).c1
  have u_le : ∀ x ∈ Set.Icc dmin.val dmax.val, |u x| ≤ c := fun x hx => (le_sz1 _).trans (ub x hx).1
  have nearL : ∀ x ∈ Set.Icc dmin.val dmax.val, sz (α * yL x - u x, α * dyL x - du x) ≤ C3 * δ * c := fun x hx =>
    (bL x hx).1.trans (mul_le_mul_of_nonneg_left (ub _ aI).1 (by positivity))
  have nearR : ∀ x ∈ Set.Icc dmin.val dmax.val, sz (β * yR x - u x, β * dyR x - du x) ≤ C3 * δ * c := fun x hx =>
    (bR x hx).1.trans (mul_le_mul_of_nonneg_left (ub _ bI).1 (by positivity))
  have C3δc : C3 * δ * c ≤ c := mul_le_of_le_one_left c0.le C3δ
  have subL : Set.Icc dmin.val m ⊆ Set.Icc dmin.val dmax.val := Set.Icc_subset_Icc_right mI.2
  have subR : Set.Icc m dmax.val ⊆ Set.Icc dmin.val dmax.val := Set.Icc_subset_Icc_left mI.1
  have JL := integral_sq_near (f := fun t => α * yL t) (u := u) (a := dmin.val) (b := m) (c := c) (η := C3 * δ * c) mI.1 (((sL.right okE).c1.mono subL).const_mul α) (cu.mono subL) (by positivity) C3δc
    (fun x hx => u_le x (subL hx)) (fun x hx => (le_sz1 _).trans (nearL x (subL hx)))
  have JR := integral_sq_near (f := fun t => β * yR t) (u := u) (a := m) (b := dmax.val) (c := c) (η := C3 * δ * c) mI.2 (((sR.right okE).c1.mono subR).const_mul β) (cu.mono subR) (by positivity) C3δc
    (fun x hx => u_le x (subR hx)) (fun x hx => (le_sz1 _).trans (nearR x (subR hx)))
  have eJ : ∀ (g : ℝ → ℝ) (γ p q : ℝ), ∫ t in p..q, γ * g t * (γ * g t) = γ ^ 2 * ∫ t in p..q, g t * g t := by
    intro g γ p q
    rw [← intervalIntegral.integral_const_mul]
    congr 1; funext t; ring
  rw [eJ] at JL JR
  set A := ∫ t in dmin.val..m, u t * u t with hAi
  set B := ∫ t in m..dmax.val, u t * u t with hBi
  have A0 : 0 ≤ A := intervalIntegral.integral_nonneg mI.1 (fun t _ => mul_self_nonneg _)
  have B0 : 0 ≤ B := intervalIntegral.integral_nonneg mI.2 (fun t _ => mul_self_nonneg _)
  have hAB : A + B = 1 := by
    rw [← heig.norm, hAi, hBi]
    refine intervalIntegral.integral_add_adjacent_intervals ?_ ?_
    · exact ContinuousOn.intervalIntegrable (by rw [Set.uIcc_of_le mI.1]; exact (cu.mono subL).mul (cu.mono subL))
    · exact ContinuousOn.intervalIntegrable (by rw [Set.uIcc_of_le mI.2]; exact (cu.mono subR).mul (cu.mono subR))
  have h5 : |α ^ 2 * (yl.yE.val * yl.dy.val - yl.dyE.val * yl.y.val) - A| ≤ K * (κ + δ) := by
    rw [hK]
    exact side_norm (cc := valY yl) hC1 hC3 κ0 (by linarith) (sz_nonneg _) szα hM δ0 hc nl1 nl2 (bL m mI).2.1 (bL m mI).2.2 iL JL (by linarith [mI.2])
  have h6 : |β ^ 2 * (yr.yE.val * yr.dy.val - yr.dyE.val * yr.y.val) + B| ≤ K * (κ + δ) := by
    rw [hK]
    have := side_norm (cc := valY yr) (J := -B) (a := m) (b := dmax.val) (M := M) (δ := δ) hC1 hC3 κ0 (by linarith) (sz_nonneg _) szβ hM δ0 hc nr1 nr2 (bR m mI).2.1 (bR m mI).2.2 iR (by
      rw [show β ^ 2 * (-∫ t in m..dmax.val, yR t * yR t) - -B = -(β ^ 2 * (∫ t in m..dmax.val, yR t * yR t) - B) by ring, abs_neg]; exact JR) (by linarith [mI.1])
    rwa [sub_neg_eq_add] at this
  -- the values at the matching point
  have scaled : ∀ (γ s : ℝ) (w : Y (Fl fl)) (yv uv : ℝ × ℝ), |γ| * s ≤ c → sz (pr (valY w) - yv) ≤ C1 * κ * s → sz (γ • yv - uv) ≤ C3 * δ * c → 
      |γ| * sz (pr (valY w) - yv) ≤ C1 * κ * c ∧ sz (γ • pr (valY w) - uv) ≤ K * (κ + δ) := by
    intro γ s w yv uv h1 h2 h3
    have k1 : |γ| * sz (pr (valY w) - yv) ≤ C1 * κ * c := by
      have q1 := mul_le_mul_of_nonneg_left h2 (abs_nonneg γ)
      have q2 := mul_le_mul_of_nonneg_left h1 (show 0 ≤ C1 * κ by positivity)
      linarith only [q1, q2]
    refine ⟨k1, ?_⟩
    have k2 := sz_tri (γ • pr (valY w)) (γ • yv) uv
    rw [← smul_sub, sz_smul] at k2
    have k3 : C1 * c * κ ≤ K * κ := mul_le_mul_of_nonneg_right KC1 κ0
    have k4 : C3 * c * δ ≤ K * δ := mul_le_mul_of_nonneg_right KC3 δ0
    linarith only [k1, k2, k3, k4, h3]
  have vL := (scaled α _ yl (yL m, dyL m) (u m, du m) szα nl1 (nearL m mI)).2
  have vR := (scaled β _ yr (yR m, dyR m) (u m, du m) szβ nr1 (nearR m mI)).2
  have hηG : 10 ^ 8 * (c * b ^ 10) * (K * (κ + δ) + (ur + σ) + a) ≤ G * (κ + δ) := by
    have h1 : K * (κ + δ) + (ur + σ) + a ≤ (K + 2) * (κ + δ) := by linarith
    have := mul_le_mul_of_nonneg_left h1 (show 0 ≤ 10 ^ 8 * (c * b ^ 10) by positivity)
    rw [hG]; linarith
  obtain ⟨ς, kL, kR, hς, nkL, nkR, dkL, dkR⟩ := norm_fl hA ha0 hsq hc b1 hα hβ αb βb αi βi ((le_sz1 _).trans zl1) ((le_sz2 _).trans zl1) ((le_sz1 _).trans zl2) ((le_sz2 _).trans zl2)
    ((le_sz1 _).trans zr1) ((le_sz2 _).trans zr1) ((le_sz1 _).trans zr2) ((le_sz2 _).trans zr2) ((le_sz1 _).trans vL) ((le_sz2 _).trans vL) ((le_sz1 _).trans vR) ((le_sz2 _).trans vR) (ub m mI).2
    (hηG.trans hGκ) A0 B0 hAB h5 h6
  replace dkL := dkL.trans hηG
  replace dkR := dkR.trans hηG
  rw [hP] at f1
  refine ⟨f, ς, f1, f2, f3.trans hPmin, f4.trans hPmax, hς, ?_⟩
  intro x hx1 hx2 v hval
  have hx : x.val ∈ Set.Icc dmin.val dmax.val := ⟨hx1, hx2⟩
  have ep0 := hF.eps0
  rw [← hδ]
  obtain ⟨ρ, hρ⟩ : ∃ ρ, ρ = H ^ 15 + ε + eps.val := ⟨_, rfl⟩
  have ρ0 : 0 ≤ ρ := by rw [hρ]; positivity
  have ερ : ε ≤ ρ := by rw [hρ]; have : 0 ≤ H ^ 15 := by positivity
                        linarith
  have κρ : κ ≤ ρ := by
    rw [hκ, hρ]
    have := pow_le_pow_of_le_one hH0.le hf.small (show 15 ≤ 16 by norm_num)
    linarith
  have fin : C2 * (3 * b ^ 2 * ur + 3 * (C1 * κ * c) + ρ * (7 * c)) + (3 * (C3 * δ * c) + G * (κ + δ) * c) ≤ (G + D) * (ρ + δ) := by
    have p1 : 3 * C2 * C1 * c * κ ≤ 3 * C2 * C1 * c * ρ := mul_le_mul_of_nonneg_left κρ (by positivity)
    have p2 : G * c * κ ≤ G * c * ρ := mul_le_mul_of_nonneg_left κρ (by positivity)
    have p3 : 0 ≤ G * (ρ + δ) := by positivity
    have p4 : 0 ≤ (3 * C2 * b ^ 2 + 3 * C2 * C1 * c + 7 * c * C2) * δ := by positivity
    have p5 : 0 ≤ 3 * C3 * c * ρ := by positivity
    have p6 : 3 * C2 * b ^ 2 * ur ≤ 3 * C2 * b ^ 2 * ρ := mul_le_mul_of_nonneg_left (by linarith only [ερ, hwε, hσ0, hτ0]) (by positivity)
    rw [hD]
    linarith only [p1, p2, p3, p4, p5, p6]
  -- one step, scaled
  have val : ∀ i (hi : i < P.secs.length), (P.secs[i]).min.val ≤ x.val → x.val ≤ (P.secs[i]).max.val → ∀ t : Fl fl, t = (P.secs[i]).min ∨ t = (P.secs[i]).max → t.val ∈ Set.Icc dmin.val dmax.val →
      ∀ (γ k s : ℝ) (y dy : ℝ → ℝ) (w : Y (Fl fl)) (kf : Fl fl), SolvesMesh W E.val (realMesh r.sectors) y dy → |γ| * s ≤ c → |γ| ≤ b → 0 ≤ s → s ≤ M →
        (∀ t ∈ Set.Icc dmin.val dmax.val, sz (γ * y t - u t, γ * dy t - du t) ≤ C3 * δ * c) → sz (y t.val, dy t.val) ≤ C3 * s → kf.val = ς * γ * k →
        |k - 1| ≤ G * (κ + δ) → sz (pr (valY w) - (y t.val, dy t.val)) ≤ C1 * κ * s →
        sz (pr (valY ((P.secs[i]).propagate E true (w.smul kf) t x).1) - ς • (u x.val, du x.val)) ≤ C2 * (3 * b ^ 2 * ur + 3 * (C1 * κ * c) + ρ * (7 * c)) + (3 * (C3 * δ * c) + G * (κ + δ) * c) := by
    intro i hi h1 h2 t ht htI γ k s y dy w kf hy hγ hγb s0 sM hnear hyt hkf hk hw
    have hi' : i < r.sectors.length := by omega
    have eP : P.secs[i] = sectorGen eps eta th pru (vs r.sectors[i]) v0P r.sectors[i] := by simp only [hsP, List.getElem_map]
    rw [eP] at h1 h2 ht ⊢
    have hmem := List.getElem_mem hi'
    have ev := inside fl H ur mu σ τ W dmin dmax eps r.sectors eta vs th pru v0P E t x r.sectors[i] _ _ hF hσ0 (by linarith) (by linarith) hmem hEM ht h1 h2
      ((hy.comb hy (ς * γ * k) 0) _ (List.mem_map_of_mem (f := realSec) hmem)) (w.smul kf)
    have e1 : ∀ t, (ς * γ * k * y t + 0 * y t, ς * γ * k * dy t + 0 * dy t) = (ς * γ * k) • (y t, dy t) := fun t => by ext <;> simp
    rw [e1, e1] at ev
    have ev' := ev.trans (mul_le_mul_of_nonneg_left (add_le_add_right (mul_le_mul_of_nonneg_right (show H ^ 15 + τ + (ur + σ) + eps.val ≤ ρ by rw [hρ]; linarith)
      (add_nonneg (sz_nonneg _) mu0)) _) C20.le)
    have zw := size s0 sM hw hyt
    have ak : |k| ≤ 3 := by
      have := abs_add_le (k - 1) 1
      rw [abs_one, sub_add_cancel] at this
      linarith
    have ag : |ς * γ * k| ≤ 3 * b := by
      have aς : |ς| = 1 := by rcases hς with h | h <;> rw [h] <;> simp
      rw [abs_mul, abs_mul, aς, one_mul]
      have := mul_le_mul hγb ak (abs_nonneg _) (by linarith)
      linarith
    refine value_fl hς C20.le ρ0 hk (by linarith) ev' (smul_fl hA b1 w hkf ag zw) (by linarith) (scaled γ s w (y t.val, dy t.val) (u t.val, du t.val) hγ hw (hnear _ htI)).1 ?_ (hnear _ hx) (ub _ hx).1
    have k1 := sz_le_add (γ • (y t.val, dy t.val)) (u t.val, du t.val)
    have k2 := hnear _ htI
    have k3 := (ub _ htI).1
    change sz (γ • (y t.val, dy t.val) - (u t.val, du t.val)) ≤ _ at k2
    linarith only [k1, k2, k3, C3δc]
  have main : sz ((v.1.val, v.2.val) - ς • (u x.val, du x.val)) ≤ (G + D) * (ρ + δ) := by
    obtain ⟨i, hi, h1, h2, h3⟩ := f5 x (by rw [hPmin]; exact hx.1) (by rw [hPmax]; exact hx.2) v hval
    have hi' : i < r.sectors.length := by omega
    have eP : P.secs[i] = sectorGen eps eta th pru (vs r.sectors[i]) v0P r.sectors[i] := by simp only [hsP, List.getElem_map]
    have emin : (P.secs[i]).min.val = p i := by rw [eP]; exact (hpk i hi').1
    have emax : (P.secs[i]).max.val = p (i + 1) := by rw [eP]; exact (hpk i hi').2
    have step : ∀ j (hj : j < steps.length) (t : Fl fl), t.val = p j → (t = (P.secs[i]).min ∨ t = (P.secs[i]).max) → v = prF ((P.secs[i]).propagate E true steps[j] t x).1 →
        sz ((v.1.val, v.2.val) - ς • (u x.val, du x.val)) ≤ (G + D) * (ρ + δ) := by
      intro j hj t ht hend hve
      rw [hve]
      have htI : t.val ∈ Set.Icc dmin.val dmax.val := by rw [ht]; exact hpt j (by omega)
      refine le_trans ?_ fin
      rcases st3 j hj with ⟨w, hw, e⟩ | ⟨w, hw, e⟩
      · rw [e]
        have := fold (qL3 j w (by omega) hw).1 smL
        rw [← ht] at this
        exact val i hi h1 h2 t hend htI α kL _ yL dyL w _ sL szα αb (sz_nonneg _) hl' nearL (bL _ htI).2.1 nkL dkL this
      · rw [e]
        have := fold (qR3 j w (by omega) hw).1 smR
        rw [← ht] at this
        exact val i hi h1 h2 t hend htI β kR _ yR dyR w _ sR szβ βb (sz_nonneg _) hr' nearR (bR _ htI).2.1 nkR dkR this
    rcases h3 with ⟨hj, hve⟩ | ⟨hj, hve⟩
    · exact step i hj _ emin (.inl rfl) hve
    · exact step (i + 1) hj _ emax (.inr rfl) hve
  rw [← hρ]
  exact ⟨(le_sz1 _).trans main, (le_sz2 _).trans main⟩

end Verif.Fp
