import Verif.Lemmas.FlInside

/-!
# The steps of the eigenfunction in finite precision
-/
namespace Verif.Fp
open Verif.Mesh Verif.YT Verif.CalcT Verif.Propag Verif.Solver Verif.Spec Verif.Legendre

variable {fl : ℝ → ℝ} {u mu : ℝ}

/-- The invariant after `n` sectors, from `x0` to `x`, with rounding errors `ρ` per sector. -/
def FInv (L C ρ τ H S T x0 : ℝ) (y dy z dz : ℝ → ℝ) (n : ℕ) (x : ℝ) (c : Y ℝ) : Prop :=
  DInv S T (Real.exp (L * |x - x0| + n * (2 * ρ))) (L * |x - x0|) (C * ((H ^ 16 + τ) * |x - x0|) + n * (3 * ρ)) c (y x, dy x) (z x, dz x)

theorem FInv.step {L C ρ τ H S T x0 mu : ℝ} {y dy z dz : ℝ → ℝ} {n : ℕ} {x x' : ℝ} {c c' : Y ℝ} {st : Y ℝ → Y ℝ} (h : FInv L C ρ τ H S T x0 y dy z dz n x c)
    (hst : DStep st y dy z dz x x' (L * (|x' - x| + 0)) (C * ((H ^ 16 + τ) * |x' - x| + 0))) (hρ : 0 ≤ ρ) (hmu : 0 ≤ mu) (hms : mu ≤ S) (hp : Pert ρ mu c (st c) c')
    (hx : |x' - x0| = |x - x0| + |x' - x|) : FInv L C ρ τ H S T x0 y dy z dz (n + 1) x' c' := by
  have k := DInv.pert h hst hρ hmu hms hp
  unfold FInv
  rw [hx]
  have e1 : L * (|x - x0| + |x' - x|) + ((n + 1 : ℕ) : ℝ) * (2 * ρ) = (L * |x - x0| + n * (2 * ρ)) + (L * (|x' - x| + 0) + 2 * ρ) := by push_cast; ring
  have e2 : C * ((H ^ 16 + τ) * (|x - x0| + |x' - x|)) + ((n + 1 : ℕ) : ℝ) * (3 * ρ) = (C * ((H ^ 16 + τ) * |x - x0|) + n * (3 * ρ)) + (C * ((H ^ 16 + τ) * |x' - x| + 0) + 3 * ρ) := by push_cast; ring
  have e3 : L * (|x - x0| + |x' - x|) = L * |x - x0| + L * (|x' - x| + 0) := by ring
  rw [e1, e2, e3, Real.exp_add]
  exact k

/-- What the invariant says. -/
theorem FInv.bound {L C A w τ H S T x0 M ε : ℝ} {y dy z dz : ℝ → ℝ} {n N : ℕ} {x : ℝ} {c : Y ℝ} (h : FInv L C (A * w) τ H S T x0 y dy z dz n x c) (hL : 1 ≤ L) (hC : 1 ≤ C) (hM : 1 ≤ M) (hA : 0 ≤ A)
    (hw : 0 ≤ w) (hτ : 0 ≤ τ) (hH : 0 ≤ H) (hnN : n ≤ N) (hε : τ + N * w ≤ ε) (hε1 : ε ≤ 1) (hx : |x - x0| ≤ M) :
    sz (pr c - (y x, dy x)) ≤ Real.exp (L * M + 2 * A) * ((C * M + 3 * A) * (1 + L * M)) * (H ^ 16 + ε) * S ∧
    sz (pe c - (z x, dz x)) ≤ Real.exp (L * M + 2 * A) * ((C * M + 3 * A) * (1 + L * M)) * (H ^ 16 + ε) * (T + S) := by
  have hM0 : 0 ≤ M := by linarith
  have C0 : 0 ≤ C := by linarith
  have L0 : 0 ≤ L := by linarith
  have nw : (n : ℝ) * w ≤ N * w := mul_le_mul_of_nonneg_right (by exact_mod_cast hnN) hw
  have nw0 : 0 ≤ (n : ℝ) * w := by positivity
  have ε0 : 0 ≤ ε := by linarith
  have D0 := abs_nonneg (x - x0)
  have X0 : 0 ≤ L * |x - x0| := by positivity
  have X1 : L * |x - x0| ≤ L * M := mul_le_mul_of_nonneg_left hx L0
  have g1 : Real.exp (L * |x - x0| + n * (2 * (A * w))) ≤ Real.exp (L * M + 2 * A) := by
    refine Real.exp_le_exp.mpr (add_le_add X1 ?_)
    calc (n : ℝ) * (2 * (A * w)) = 2 * A * (n * w) := by ring
      _ ≤ 2 * A * 1 := mul_le_mul_of_nonneg_left (by linarith) (by linarith)
      _ = 2 * A := mul_one _
  have h16 : 0 ≤ H ^ 16 := pow_nonneg hH _
  have R1 : C * ((H ^ 16 + τ) * |x - x0|) + n * (3 * (A * w)) ≤ (C * M + 3 * A) * (H ^ 16 + ε) := by
    have i1 : C * ((H ^ 16 + τ) * |x - x0|) ≤ C * ((H ^ 16 + ε) * M) := mul_le_mul_of_nonneg_left (mul_le_mul (by linarith) hx D0 (by linarith)) C0
    have i2 : 3 * A * (n * w) ≤ 3 * A * (H ^ 16 + ε) := mul_le_mul_of_nonneg_left (by linarith) (by linarith)
    linarith only [i1, i2]
  obtain ⟨s0, t0, -, -, R0, -, -, he, hq⟩ := h
  obtain ⟨G, hG⟩ : ∃ G, G = Real.exp (L * M + 2 * A) := ⟨_, rfl⟩
  rw [← hG] at g1 ⊢
  have G0 : 0 ≤ G := by rw [hG]; exact (Real.exp_pos _).le
  obtain ⟨κ, hκ⟩ : ∃ κ, κ = H ^ 16 + ε := ⟨_, rfl⟩
  rw [← hκ] at R1 ⊢
  have κ0 : 0 ≤ κ := by linarith
  have B0 : 0 ≤ C * M + 3 * A := by positivity
  have LM : 0 ≤ L * M := by positivity
  constructor
  · refine he.trans ((mul_le_mul_of_nonneg_right (mul_le_mul g1 R1 R0 G0) s0).trans ?_)
    have : 0 ≤ G * ((C * M + 3 * A) * κ) * S * (L * M) := by positivity
    linarith only [this]
  · have tX : T + (1 + L * |x - x0|) * S ≤ (1 + L * M) * (T + S) := by
      have i1 := mul_le_mul_of_nonneg_right X1 s0
      have i2 : 0 ≤ L * M * T := by positivity
      linarith only [i1, i2]
    refine hq.trans ((mul_le_mul (mul_le_mul g1 R1 R0 G0) tX (by positivity) (by positivity)).trans (le_of_eq (by ring)))

set_option maxHeartbeats 800000 in
/-- Both invariants exist on the solver's own sectors. `p` lists the mesh points. -/
theorem eigen_chain_fl (M : ℝ) (hM : 1 ≤ M) : ∃ C : ℝ, 1 ≤ C ∧ ∀ (fl : ℝ → ℝ) (H u mu σ τ ε : ℝ) (W : Sec ℝ → ℝ → ℝ) (dmin dmax eps : Fl fl) (r : BuildResult (Fl fl))
    (eta : ℕ → Fl fl → ℕ → Fl fl) (vs : Sec (Fl fl) → ℕ → Fl fl) (th : Fl fl → Fl fl → Fl fl → Y (Fl fl) → Fl fl) (pru : Fl fl → Fl fl → Fl fl → Fl fl → Y (Fl fl) → Y (Fl fl) → Fl fl)
    (E : Fl fl) (y dy z dz : ℝ → ℝ) (p : ℕ → ℝ),
    FlFit M H u mu σ τ (6 * M * H) W dmin dmax eps r.sectors eta vs → 0 ≤ σ → τ + r.sectors.length * (u + σ) ≤ ε → ε ≤ 1 / 8 → dmax.val - dmin.val ≤ M → |E.val| ≤ M →
    SolvesMesh W E.val (realMesh r.sectors) y dy → EnergyMesh W E.val (realMesh r.sectors) y z dz →
    p 0 = dmin.val → p r.sectors.length = dmax.val → (∀ k, k ≤ r.sectors.length → p k ∈ Set.Icc dmin.val dmax.val) →
    (∀ k (hk : k < r.sectors.length), (r.sectors[k]).min.val = p k ∧ (r.sectors[k]).max.val = p (k + 1)) →
    ∀ P, P = constructGen eps eta th pru vs dmin dmax r →
    (∃ Q : ℕ → Y (Fl fl) → Prop, (∀ k (hk : k < P.secs.length) c, Q k c → Q (k + 1) ((P.secs[k]).propagate E true c (P.secs[k]).min (P.secs[k]).max).1) ∧
      (∀ c, pr (valY c) = (y dmin.val, dy dmin.val) → pe (valY c) = (z dmin.val, dz dmin.val) → Q 0 c) ∧
      ∀ k c, k ≤ P.secs.length → Q k c → sz (pr (valY c) - (y (p k), dy (p k))) ≤ C * (H ^ 16 + ε) * (sz (y dmin.val, dy dmin.val) + mu) ∧
        sz (pe (valY c) - (z (p k), dz (p k))) ≤ C * (H ^ 16 + ε) * (sz (z dmin.val, dz dmin.val) + (sz (y dmin.val, dy dmin.val) + mu))) ∧
    (∃ Q : ℕ → Y (Fl fl) → Prop, (∀ k (hk : k < P.secs.length) c, Q (k + 1) c → Q k ((P.secs[k]).propagate E true c (P.secs[k]).max (P.secs[k]).min).1) ∧
      (∀ c, pr (valY c) = (y dmax.val, dy dmax.val) → pe (valY c) = (z dmax.val, dz dmax.val) → Q P.secs.length c) ∧
      ∀ k c, k ≤ P.secs.length → Q k c → sz (pr (valY c) - (y (p k), dy (p k))) ≤ C * (H ^ 16 + ε) * (sz (y dmax.val, dy dmax.val) + mu) ∧
        sz (pe (valY c) - (z (p k), dz (p k))) ≤ C * (H ^ 16 + ε) * (sz (z dmax.val, dz dmax.val) + (sz (y dmax.val, dy dmax.val) + mu))) := by
  obtain ⟨C, hC, key⟩ := sector_dstep M hM
  have hM0 : 0 ≤ M := by linarith
  have hse := stepE_nonneg hM
  obtain ⟨A, hA⟩ : ∃ A, A = stepE M := ⟨_, rfl⟩
  rw [← hA] at hse
  obtain ⟨L, hL⟩ : ∃ L, L = 4 * M + 2 * C := ⟨_, rfl⟩
  have hL1 : 1 ≤ L := by linarith
  have hLM : 0 ≤ L * M := by positivity
  refine ⟨Real.exp (L * M + 2 * A) * ((C * M + 3 * A) * (1 + L * M)), ?_, ?_⟩
  · have : 1 ≤ C * M := one_le_mul_of_one_le_of_one_le hC hM
    exact one_le_mul_of_one_le_of_one_le (Real.one_le_exp (by positivity)) (one_le_mul_of_one_le_of_one_le (by linarith) (by linarith))
  intro fl H u mu σ τ ε W dmin dmax eps r eta vs th pru E y dy z dz p hF hσ0 hε hε1 hd hE hy hz p0 pN pI hp P hP
  have hN0 : 0 < r.sectors.length := by
    have := hF.fit.mesh.length_pos
    unfold realMesh at this; rwa [List.length_map] at this
  have hN1 : (1 : ℝ) ≤ r.sectors.length := by exact_mod_cast hN0
  have hu0 := hF.u0
  have hw0 : 0 ≤ u + σ := by linarith
  have hτ0 : 0 ≤ τ := (hF.coeff _ (List.getElem_mem hN0)).nonneg
  have hwN : u + σ ≤ r.sectors.length * (u + σ) := le_mul_of_one_le_left hw0 hN1
  have h8 : u + σ ≤ 1 / 8 := by linarith
  have hτ1 : τ ≤ 1 := by linarith
  have hmu := hF.mu0
  have hH0 : 0 ≤ H := by
    have h0 := hF.fit.mesh.length_pos
    have h1 := hF.fit.wide _ (List.getElem_mem h0)
    have h2 := hF.fit.narrow _ (List.getElem_mem h0)
    linarith
  have het : EtaWithin 0 etaR := fun n _ Z i _ => by simp [etaR]
  obtain ⟨v0P, hsP⟩ : ∃ v0, P.secs = r.sectors.map (fun s => sectorGen eps eta th pru (vs s) v0 s) := ⟨_, by rw [hP]; rfl⟩
  have hlen : P.secs.length = r.sectors.length := by rw [hsP, List.length_map]
  have hAw : 0 ≤ A * (u + σ) := mul_nonneg hse hw0
  have hst : ∀ k (hk : k < P.secs.length), p k < p (k + 1) ∧ ∃ st1 st2 : Y ℝ → Y ℝ,
      DStep st1 y dy z dz (p k) (p (k + 1)) (L * (|p (k + 1) - p k| + 0)) (C * ((H ^ 16 + τ) * |p (k + 1) - p k| + 0)) ∧
      DStep st2 y dy z dz (p (k + 1)) (p k) (L * (|p k - p (k + 1)| + 0)) (C * ((H ^ 16 + τ) * |p k - p (k + 1)| + 0)) ∧
      (∀ c : Y (Fl fl), Pert (A * (u + σ)) mu (valY c) (st1 (valY c)) (valY ((P.secs[k]).propagate E true c (P.secs[k]).min (P.secs[k]).max).1)) ∧
      ∀ c : Y (Fl fl), Pert (A * (u + σ)) mu (valY c) (st2 (valY c)) (valY ((P.secs[k]).propagate E true c (P.secs[k]).max (P.secs[k]).min).1) := by
    intro k hk
    have hkr : k < r.sectors.length := by omega
    have hsk : P.secs[k] = sectorGen eps eta th pru (vs r.sectors[k]) v0P r.sectors[k] := by simp only [hsP, List.getElem_map]
    have hm : r.sectors[k] ∈ r.sectors := List.getElem_mem hkr
    have hmR := List.mem_map_of_mem (f := realSec) hm
    obtain ⟨e1, e2⟩ := hp k hkr
    obtain ⟨s, hs⟩ : ∃ s, s = r.sectors[k] := ⟨_, rfl⟩
    rw [← hs] at hsk hm hmR e1 e2
    have m1 : (P.secs[k]).min = s.min := by rw [hsk]; rfl
    have m2 : (P.secs[k]).max = s.max := by rw [hsk]; rfl
    have hwd := hF.fit.wide _ hmR
    have hlt : s.min.val < s.max.val := by simp only [realSec] at hwd; linarith
    have c1 : cl (realSec s).min (realSec s).max s.min.val = s.min.val := cl_low le_rfl
    have c2 : cl (realSec s).min (realSec s).max s.max.val = s.max.val := cl_high hlt.le le_rfl
    have st : ∀ a b : Fl fl, (a.val ≤ (realSec s).min ∨ (realSec s).max ≤ a.val) → (b.val ≤ (realSec s).min ∨ (realSec s).max ≤ b.val) → _ := fun a b ha hb =>
      key 0 0 τ etaR (fun j => (vs s j).val) (W (realSec s)) 0 E.val H (realSec s) true a.val b.val y dy z dz het zero_le_one hτ1 le_rfl
        hwd (hF.fit.narrow _ hmR) hF.fit.small (hF.fit.smooth _ hmR) (hF.coeff _ hm) hE (hF.fit.directed _ hmR) ha hb (hy _ hmR) (hz _ hmR)
    have st1 := st s.min s.max (.inl le_rfl) (.inr le_rfl)
    have st2 := st s.max s.min (.inr le_rfl) (.inl le_rfl)
    rw [c1, c2, ← hL] at st1 st2
    rw [← e1, ← e2, m1, m2, hsk, hA]
    exact ⟨hlt, _, _, st1, st2, fun c => sector_pert hM th pru v0P true hF hσ0 h8 hτ1 hm hE (.inl le_rfl) (.inr le_rfl) c,
      fun c => sector_pert hM th pru v0P true hF hσ0 h8 hτ1 hm hE (.inr le_rfl) (.inl le_rfl) c⟩
  have n00 : ∀ (S T x0 x : ℝ) (c : Y ℝ), x = x0 → 0 ≤ S → 0 ≤ T → sz (y x0, dy x0) ≤ S → sz (z x0, dz x0) ≤ T → pr c = (y x0, dy x0) → pe c = (z x0, dz x0) →
      FInv L C (A * (u + σ)) τ H S T x0 y dy z dz 0 x c := by
    rintro S T x0 x c rfl S0 T0 h1 h2 h3 h4
    unfold FInv
    simp only [sub_self, abs_zero, Nat.cast_zero, zero_mul, add_zero, mul_zero, Real.exp_zero]
    refine ⟨S0, T0, le_rfl, le_rfl, le_rfl, by linarith, by linarith, ?_, ?_⟩ <;> simp [h3, h4, sz]
  constructor
  · have s0 := sz_nonneg (y dmin.val, dy dmin.val)
    refine ⟨fun k c => FInv L C (A * (u + σ)) τ H (sz (y dmin.val, dy dmin.val) + mu) (sz (z dmin.val, dz dmin.val)) dmin.val y dy z dz k (p k) (valY c), ?_, ?_, ?_⟩
    · intro k hk c hc
      obtain ⟨h1, s1, s2, h2, h3, h4, h5⟩ := hst k hk
      refine FInv.step hc h2 hAw hmu (by linarith) (h4 c) ?_
      have := pI k (by omega)
      rw [abs_of_nonneg (by linarith [this.1]), abs_of_nonneg (by linarith [this.1]), abs_of_nonneg (by linarith)]
      ring
    · intro c h1 h2
      exact n00 _ _ _ _ _ p0 (by linarith) (sz_nonneg _) (by linarith) le_rfl h1 h2
    · intro k c hk hc
      have := pI k (by omega)
      exact FInv.bound hc hL1 hC hM hse hw0 hτ0 hH0 (by omega : k ≤ r.sectors.length) hε (by linarith) (by rw [abs_of_nonneg (by linarith [this.1])]; linarith [this.2])
  · have s0 := sz_nonneg (y dmax.val, dy dmax.val)
    refine ⟨fun k c => FInv L C (A * (u + σ)) τ H (sz (y dmax.val, dy dmax.val) + mu) (sz (z dmax.val, dz dmax.val)) dmax.val y dy z dz (P.secs.length - k) (p k) (valY c), ?_, ?_, ?_⟩
    · intro k hk c hc
      obtain ⟨h1, s1, s2, h2, h3, h4, h5⟩ := hst k hk
      have hk' : P.secs.length - k = P.secs.length - (k + 1) + 1 := by omega
      show FInv _ _ _ _ _ _ _ _ _ _ _ _ (P.secs.length - k) _ _
      rw [hk']
      refine FInv.step hc h3 hAw hmu (by linarith) (h5 c) ?_
      have := pI (k + 1) (by omega)
      rw [abs_of_nonpos (by linarith [this.2]), abs_of_nonpos (by linarith [this.2]), abs_of_nonpos (by linarith)]
      ring
    · intro c h1 h2
      show FInv _ _ _ _ _ _ _ _ _ _ _ _ (P.secs.length - P.secs.length) (p P.secs.length) _
      rw [Nat.sub_self]
      exact n00 _ _ _ _ _ (by rw [hlen]; exact pN) (by linarith) (sz_nonneg _) (by linarith) le_rfl h1 h2
    · intro k c hk hc
      have := pI k (by omega)
      exact FInv.bound hc hL1 hC hM hse hw0 hτ0 hH0 (by omega : P.secs.length - k ≤ r.sectors.length) hε (by linarith) (by rw [abs_of_nonpos (by linarith [this.2])]; linarith [this.1])

end Verif.Fp
