import Verif.Lemmas.EigenSteps
import Verif.Lemmas.EnergyDMesh

/-!
# The steps of the eigenfunction follow exact solutions and their energy derivatives
-/
namespace Verif.Solver
open Verif.Mesh Verif.YT Verif.CalcT Verif.Propag Verif.Formulas Verif.Legendre Verif.Spec Verif.Eigen

/-- The invariant after `n` sectors, from `x0` to `x`. -/
def QInv (L C σ τ H S T x0 : ℝ) (y dy z dz : ℝ → ℝ) (n : ℕ) (x : ℝ) (c : Y ℝ) : Prop :=
  DInv S T (Real.exp (L * (|x - x0| + n * σ))) (L * (|x - x0| + n * σ)) (C * ((H ^ 16 + τ) * |x - x0| + n * σ)) c (y x, dy x) (z x, dz x)

theorem QInv.step {L C σ τ H S T x0 : ℝ} {y dy z dz : ℝ → ℝ} {n : ℕ} {x x' : ℝ} {c : Y ℝ} {st : Y ℝ → Y ℝ} (h : QInv L C σ τ H S T x0 y dy z dz n x c)
    (hst : DStep st y dy z dz x x' (L * (|x' - x| + σ)) (C * ((H ^ 16 + τ) * |x' - x| + σ))) (hx : |x' - x0| = |x - x0| + |x' - x|) :
    QInv L C σ τ H S T x0 y dy z dz (n + 1) x' (st c) := by
  have k := DInv.step h hst
  unfold QInv
  rw [hx]
  have e1 : L * (|x - x0| + |x' - x| + ((n + 1 : ℕ) : ℝ) * σ) = L * (|x - x0| + n * σ) + L * (|x' - x| + σ) := by push_cast; ring
  have e2 : C * ((H ^ 16 + τ) * (|x - x0| + |x' - x|) + ((n + 1 : ℕ) : ℝ) * σ) = C * ((H ^ 16 + τ) * |x - x0| + n * σ) + C * ((H ^ 16 + τ) * |x' - x| + σ) := by push_cast; ring
  rw [e1, e2, Real.exp_add]
  exact k

/-- What the invariant says. -/
theorem QInv.bound {L C σ τ H S T x0 M ε : ℝ} {y dy z dz : ℝ → ℝ} {n N : ℕ} {x : ℝ} {c : Y ℝ} (h : QInv L C σ τ H S T x0 y dy z dz n x c) (hL : 1 ≤ L) (hC : 1 ≤ C) (hM : 1 ≤ M)
    (hσ : 0 ≤ σ) (hτ : 0 ≤ τ) (hH : 0 ≤ H) (hnN : n ≤ N) (hε : τ + N * σ ≤ ε) (hε1 : ε ≤ 1) (hx : |x - x0| ≤ M) :
    sz (pr c - (y x, dy x)) ≤ Real.exp (L * (M + 1)) * (C * M * (1 + L * (M + 1))) * (H ^ 16 + ε) * S ∧
    sz (pe c - (z x, dz x)) ≤ Real.exp (L * (M + 1)) * (C * M * (1 + L * (M + 1))) * (H ^ 16 + ε) * (T + S) := by
  have hM0 : 0 ≤ M := by linarith
  have C0 : 0 ≤ C := by linarith
  have L0 : 0 ≤ L := by linarith
  have nσ : (n : ℝ) * σ ≤ N * σ := mul_le_mul_of_nonneg_right (by exact_mod_cast hnN) hσ
  have nσ0 : 0 ≤ (n : ℝ) * σ := by positivity
  have ε0 : 0 ≤ ε := by have : (0 : ℝ) ≤ N * σ := by positivity
                        linarith
  set X := L * (|x - x0| + n * σ) with hX
  set Xb := L * (M + 1) with hXb
  have Xle : X ≤ Xb := mul_le_mul_of_nonneg_left (by linarith) L0
  have X0 : 0 ≤ X := h.X0
  have Xb0 : 0 ≤ Xb := X0.trans Xle
  have g1 : Real.exp X ≤ Real.exp Xb := Real.exp_le_exp.mpr Xle
  set R := C * ((H ^ 16 + τ) * |x - x0| + n * σ) with hR
  set κ := H ^ 16 + ε with hκ
  have κ0 : 0 ≤ κ := by positivity
  have Rle : R ≤ C * M * κ := by
    rw [hR, mul_assoc]
    refine mul_le_mul_of_nonneg_left ?_ C0
    have a2 := mul_le_mul_of_nonneg_left hx (show 0 ≤ H ^ 16 + τ by positivity)
    have a3 : n * σ ≤ M * (N * σ) := nσ.trans (le_mul_of_one_le_left (by linarith) hM)
    have a4 : M * (τ + N * σ) ≤ M * ε := mul_le_mul_of_nonneg_left hε hM0
    rw [hκ]
    linarith
  have R0 := h.R0
  have s0 := h.s0
  have t0 := h.t0
  have x0' := (Real.exp_pos Xb).le
  have CM : 0 ≤ C * M * κ := by positivity
  constructor
  · refine h.e.trans (mul_le_mul_of_nonneg_right ?_ s0)
    have a1 : C * M * κ ≤ C * M * κ * (1 + Xb) := le_mul_of_one_le_right CM (by linarith)
    exact (mul_le_mul g1 (Rle.trans a1) R0 x0').trans (le_of_eq (by ring))
  · refine h.q.trans ?_
    have a1 : T + (1 + X) * S ≤ (1 + Xb) * (T + S) := by
      have b1 := mul_le_mul_of_nonneg_right Xle s0
      have b2 : 0 ≤ Xb * T := by positivity
      linarith
    have a3 := mul_le_mul (mul_le_mul g1 Rle R0 x0') a1 (by positivity) (by positivity)
    exact a3.trans (le_of_eq (by ring))

set_option maxHeartbeats 800000 in
/-- Both invariants exist on the solver's own sectors. -/
theorem eigen_chain (M : ℝ) (hM : 1 ≤ M) : ∃ C : ℝ, 1 ≤ C ∧ ∀ (eps σ τ ε : ℝ) (eta : ℕ → ℝ → ℕ → ℝ) (vs : Sec ℝ → ℕ → ℝ) (W : Sec ℝ → ℝ → ℝ) (dmin dmax H E : ℝ) (r : BuildResult ℝ)
    (y dy z dz : ℝ → ℝ),
    FitMesh eps M H W dmin dmax r.sectors → EtaWithin σ eta → CoeffsWithin τ W r.sectors vs → τ + r.sectors.length * σ ≤ ε → ε ≤ 1 →
    dmax - dmin ≤ M → |E| ≤ M → SolvesMesh W E r.sectors y dy → EnergyMesh W E r.sectors y z dz →
    ∀ P, P = constructOf eps eta vs dmin dmax r →
    (∃ Q : ℕ → Y ℝ → Prop, (∀ k (hk : k < P.secs.length) c, Q k c → Q (k + 1) ((P.secs[k]).propagate E true c (P.secs[k]).min (P.secs[k]).max).1) ∧
      (∀ c, pr c = (y dmin, dy dmin) → pe c = (z dmin, dz dmin) → Q 0 c) ∧
      ∀ k c, k ≤ P.secs.length → Q k c → sz (pr c - (y (pt P k), dy (pt P k))) ≤ C * (H ^ 16 + ε) * sz (y dmin, dy dmin) ∧
        sz (pe c - (z (pt P k), dz (pt P k))) ≤ C * (H ^ 16 + ε) * (sz (z dmin, dz dmin) + sz (y dmin, dy dmin))) ∧
    (∃ Q : ℕ → Y ℝ → Prop, (∀ k (hk : k < P.secs.length) c, Q (k + 1) c → Q k ((P.secs[k]).propagate E true c (P.secs[k]).max (P.secs[k]).min).1) ∧
      (∀ c, pr c = (y dmax, dy dmax) → pe c = (z dmax, dz dmax) → Q P.secs.length c) ∧
      ∀ k c, k ≤ P.secs.length → Q k c → sz (pr c - (y (pt P k), dy (pt P k))) ≤ C * (H ^ 16 + ε) * sz (y dmax, dy dmax) ∧
        sz (pe c - (z (pt P k), dz (pt P k))) ≤ C * (H ^ 16 + ε) * (sz (z dmax, dz dmax) + sz (y dmax, dy dmax))) := by
  obtain ⟨C, hC, key⟩ := sector_dstep M hM
  have hM0 : 0 ≤ M := by linarith
  obtain ⟨L, hL⟩ : ∃ L, L = 4 * M + 2 * C := ⟨_, rfl⟩
  have hL1 : 1 ≤ L := by linarith
  refine ⟨Real.exp (L * (M + 1)) * (C * M * (1 + L * (M + 1))), ?_, ?_⟩
  · have h0 : 0 ≤ L * (M + 1) := by positivity
    exact one_le_mul_of_one_le_of_one_le (Real.one_le_exp h0) (one_le_mul_of_one_le_of_one_le (one_le_mul_of_one_le_of_one_le hC hM) (by linarith))
  intro eps σ τ ε eta vs W dmin dmax H E r y dy z dz hf he hv hε hε1 hd hE hy hz P hP
  have hPm : P.mesh = r.sectors := by rw [hP]; exact construct_mesh _ _ _ _ _ _
  have hPmin : P.dmin = dmin := by rw [hP]; rfl
  have hPmax : P.dmax = dmax := by rw [hP]; rfl
  have hm : IsMesh P.mesh P.dmin P.dmax := by rw [hPm, hPmin, hPmax]; exact hf.mesh
  obtain ⟨v0M, hsecs⟩ := construct_secs eps eta vs dmin dmax r
  rw [← hP] at hsecs
  have hH0 : 0 < H := fit_pos hf
  have hσ0 := he.nonneg
  have hN0 : 0 < r.sectors.length := hf.mesh.length_pos
  have hτ0 : 0 ≤ τ := (hv _ (List.getElem_mem hN0)).nonneg
  have hN1 : (1 : ℝ) ≤ r.sectors.length := by exact_mod_cast hN0
  have hσN : σ ≤ r.sectors.length * σ := le_mul_of_one_le_left hσ0 hN1
  have hσ1 : σ ≤ 1 := by linarith
  have hτ1 : τ ≤ 1 := by linarith
  have hlen : P.secs.length = r.sectors.length := by rw [hsecs, List.length_map]
  have hst : ∀ k (hk : k < P.secs.length), pt P k < pt P (k + 1) ∧
      DStep (fun c => ((P.secs[k]).propagate E true c (P.secs[k]).min (P.secs[k]).max).1) y dy z dz (pt P k) (pt P (k + 1)) (L * (|pt P (k + 1) - pt P k| + σ)) (C * ((H ^ 16 + τ) * |pt P (k + 1) - pt P k| + σ)) ∧
      DStep (fun c => ((P.secs[k]).propagate E true c (P.secs[k]).max (P.secs[k]).min).1) y dy z dz (pt P (k + 1)) (pt P k) (L * (|pt P k - pt P (k + 1)| + σ)) (C * ((H ^ 16 + τ) * |pt P k - pt P (k + 1)| + σ)) := by
    intro k hk
    have hkr : k < r.sectors.length := by omega
    have hsk : P.secs[k] = sectorOf eps eta (vs (r.sectors[k])) v0M (r.sectors[k]) := by
      simp only [hsecs, List.getElem_map]
    have hs : r.sectors[k] ∈ r.sectors := List.getElem_mem hkr
    have e1 : pt P k = (r.sectors[k]).min := by rw [← pt_min hm hk, hsk]; rfl
    have e2 : pt P (k + 1) = (r.sectors[k]).max := by rw [← pt_max P hk, hsk]; rfl
    rw [e1, e2, hsk]
    set s := r.sectors[k]
    have hw := hf.wide s hs
    have hn := hf.narrow s hs
    have hlt : s.min < s.max := by have := hf.eps_nonneg; linarith
    have c1 : cl s.min s.max s.min = s.min := cl_low le_rfl
    have c2 : cl s.min s.max s.max = s.max := cl_high hlt.le le_rfl
    have st1 := key eps σ τ eta (vs s) (W s) v0M E H s true s.min s.max y dy z dz he hσ1 hτ1 hf.eps_nonneg hw hn hf.small (hf.smooth s hs) (hv s hs) hE (hf.directed s hs)
      (.inl le_rfl) (.inr le_rfl) (hy s hs) (hz s hs)
    have st2 := key eps σ τ eta (vs s) (W s) v0M E H s true s.max s.min y dy z dz he hσ1 hτ1 hf.eps_nonneg hw hn hf.small (hf.smooth s hs) (hv s hs) hE (hf.directed s hs)
      (.inr le_rfl) (.inl le_rfl) (hy s hs) (hz s hs)
    rw [c1, c2, ← hL] at st1 st2
    exact ⟨hlt, st1, st2⟩
  have hpt : ∀ k, k ≤ P.secs.length → dmin ≤ pt P k ∧ pt P k ≤ dmax := fun k hk => by
    have := pt_in hm hk
    rwa [hPmin, hPmax] at this
  constructor
  · refine ⟨fun k c => QInv L C σ τ H (sz (y dmin, dy dmin)) (sz (z dmin, dz dmin)) dmin y dy z dz k (pt P k) c, ?_, ?_, ?_⟩
    · intro k hk c hc
      obtain ⟨h1, h2, -⟩ := hst k hk
      refine QInv.step hc h2 ?_
      have := hpt k (by omega)
      rw [abs_of_nonneg (by linarith), abs_of_nonneg (by linarith), abs_of_nonneg (by linarith)]
      ring
    · intro c h1 h2
      have e : pt P 0 = dmin := by rw [← hPmin]; rfl
      show QInv _ _ _ _ _ _ _ _ _ _ _ _ _ (pt P 0) _
      rw [e]
      unfold QInv
      simp only [sub_self, abs_zero, Nat.cast_zero, zero_mul, add_zero, mul_zero, Real.exp_zero]
      refine ⟨sz_nonneg _, sz_nonneg _, le_rfl, le_rfl, le_rfl, by linarith, by linarith, ?_, ?_⟩ <;> simp [h1, h2, sz]
    · intro k c hk hc
      have := hpt k hk
      exact QInv.bound hc hL1 hC hM hσ0 hτ0 hH0.le (by omega : k ≤ r.sectors.length) hε hε1 (by rw [abs_of_nonneg (by linarith)]; linarith)
  · refine ⟨fun k c => QInv L C σ τ H (sz (y dmax, dy dmax)) (sz (z dmax, dz dmax)) dmax y dy z dz (P.secs.length - k) (pt P k) c, ?_, ?_, ?_⟩
    · intro k hk c hc
      obtain ⟨h1, -, h2⟩ := hst k hk
      have hk' : P.secs.length - k = P.secs.length - (k + 1) + 1 := by omega
      show QInv _ _ _ _ _ _ _ _ _ _ _ _ (P.secs.length - k) _ _
      rw [hk']
      refine QInv.step hc h2 ?_
      have := hpt (k + 1) (by omega)
      rw [abs_of_nonpos (by linarith), abs_of_nonpos (by linarith), abs_of_nonpos (by linarith)]
      ring
    · intro c h1 h2
      have e : pt P P.secs.length = dmax := by rw [pt_last hm, hPmax]
      show QInv _ _ _ _ _ _ _ _ _ _ _ _ (P.secs.length - P.secs.length) (pt P P.secs.length) _
      rw [e, Nat.sub_self]
      unfold QInv
      simp only [sub_self, abs_zero, Nat.cast_zero, zero_mul, add_zero, mul_zero, Real.exp_zero]
      refine ⟨sz_nonneg _, sz_nonneg _, le_rfl, le_rfl, le_rfl, by linarith, by linarith, ?_, ?_⟩ <;> simp [h1, h2, sz]
    · intro k c hk hc
      have := hpt k hk
      exact QInv.bound hc hL1 hC hM hσ0 hτ0 hH0.le (by omega : P.secs.length - k ≤ r.sectors.length) hε hε1 (by rw [abs_of_nonpos (by linarith)]; linarith)

end Verif.Solver
