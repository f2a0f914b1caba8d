import Verif.Lemmas.EnergyDt

/-!
# Maps near the energy derivative of the solution flow
-/
namespace Verif

/-- The map `D` reproduces, up to the relative error `e`, the values at `x'` of the energy derivative of every solution (with energy derivative zero at `x`) from
the values of the solution at `x`. -/
def DNear (V : ℝ → ℝ) (E a b : ℝ) (D : ℝ × ℝ → ℝ × ℝ) (x x' e : ℝ) : Prop :=
  ∀ y dy z dz : ℝ → ℝ, SolvesOn V E a b y dy → EnergyOn V E a b y z dz → z x = 0 → dz x = 0 → sz (D (y x, dy x) - (z x', dz x')) ≤ e * sz (y x, dy x)

theorem DNear.mono {V : ℝ → ℝ} {E a b x x' e e' : ℝ} {D : ℝ × ℝ → ℝ × ℝ} (h : DNear V E a b D x x' e) (he : e ≤ e') : DNear V E a b D x x' e' :=
  fun y dy z dz hy hz h1 h2 => (h y dy z dz hy hz h1 h2).trans (mul_le_mul_of_nonneg_right he (sz_nonneg _))

theorem DNear.refl (V : ℝ → ℝ) (E a b x : ℝ) : DNear V E a b (fun _ => 0) x x 0 := by
  intro y dy z dz _ _ h1 h2; simp [sz, h1, h2]

theorem EnergyOn.shift {V : ℝ → ℝ} {E a b : ℝ} {y z dz : ℝ → ℝ} (hs : EnergyOn V E a b y z dz) :
    EnergyOn (fun x => V (a + x)) E 0 (b - a) (fun x => y (a + x)) (fun x => z (a + x)) (fun x => dz (a + x)) := by
  have hmem : ∀ x ∈ Set.Icc 0 (b - a), a + x ∈ Set.Icc a b := fun x hx => ⟨by linarith [hx.1], by linarith [hx.2]⟩
  have hi : ∀ x, HasDerivWithinAt (fun x : ℝ => a + x) 1 (Set.Icc 0 (b - a)) x := fun x => ((hasDerivAt_id x).const_add a).hasDerivWithinAt
  constructor
  · intro x hx
    have := (hs.d1 (a + x) (hmem x hx)).comp x (hi x) (fun t ht => hmem t ht)
    exact this.congr_deriv (by simp)
  · intro x hx
    have := (hs.d2 (a + x) (hmem x hx)).comp x (hi x) (fun t ht => hmem t ht)
    exact this.congr_deriv (by simp)

end Verif

namespace Verif.CalcT
open Verif.YT Verif.Formulas Verif.PL Verif.Legendre
open scoped BigOperators

/-- The derivative of `tH` differs from that of its certificate by `O(h^19)`. -/
theorem tHZ_close (p : Cp) {v : ℕ → ℝ} {M : ℝ} (hM : 1 ≤ M) (hv : ∀ k, 1 ≤ k → |v k| ≤ M) {h Z0 : ℝ} (h0 : 0 < h) (h1 : h ≤ 1)
    (hZ : |Z0| ≤ M) : |UZ 10 (hp p.sel) v h Z0 h - UZ 11 (ex (extT p)) v h Z0 h| ≤ BH p M * h ^ 19 := by
  have e1 : UZ 10 (hp p.sel) v h Z0 h = ∑ i ∈ Finset.range 11, eval v h 1 (hp p.sel i) * (h ^ 2 / 2 * Eta.eta (i + 1) (Z0 * h ^ 2)) := by
    rw [UZ, Finset.sum_range_succ _ 10, hp_end _ (le_refl 10), div_self h0.ne']; simp [eval]
  rw [e1, UZ, div_self h0.ne', ← Finset.sum_sub_distrib, BH, Finset.sum_mul]
  refine (Finset.abs_sum_le_sum_abs _ _).trans (Finset.sum_le_sum (fun i hi => ?_))
  rw [Finset.mem_range] at hi
  rw [← sub_mul, ← evalAll_hdiff, eval_of_cancels v h 1 (chkH p hi), abs_mul]
  have b1 := evalAll_bound hM hv h0.le h1 zero_le_one le_rfl (N := 19) (p := 0) ((hdiff p.sel (extT p) i).map (high 19))
    (fun l hl => by obtain ⟨l, _, rfl⟩ := List.mem_map.mp hl; exact high_ord 19 l)
    (fun l hl => by
      obtain ⟨l, hl', rfl⟩ := List.mem_map.mp hl
      exact (Good.hdiff (hp_good p i) (ext_good p i) l hl').high 19)
  have b2 := abs_etaZ1_le hZ h0.le h1 (i + 1)
  simp only [one_pow, mul_one] at b1
  calc _ ≤ bndAll M ((hdiff p.sel (extT p) i).map (high 19)) * h ^ 19 * Real.exp M :=
        mul_le_mul b1 b2 (abs_nonneg _) (mul_nonneg (bndAll_nonneg (by linarith) _) (by positivity))
    _ = _ := by ring

/-- From entries to maps. -/
theorem dmap_near {nV N n : ℕ} {a b c d : ℕ → PL} (C : Cert2 nV N n a b c d) (hN : 2 ≤ N) {M : ℝ} (hM : 1 ≤ M)
    {v : ℕ → ℝ} (hv : ∀ k, 1 ≤ k → |v k| ≤ M) {h E : ℝ} (h0 : 0 < h) (h1 : h ≤ 1) (hE : |v 0 - E| ≤ M) {V : ℝ → ℝ} {ε : ℝ}
    (hε : ε ≤ M) (hV : ∀ x ∈ Set.Icc 0 h, |V x - (v 0 + dV nV v h x)| ≤ ε) {y dy z dz : ℝ → ℝ}
    (hs : SolvesOn V E 0 h y dy) (hz : EnergyOn V E 0 h y z dz) (z0 : z 0 = 0) (dz0 : dz 0 = 0) {δ : ℝ} (hδ : δ ∈ Set.Icc 0 h) {m : M2 ℝ} {r : ℝ}
    (ha : |m.a - -((preZ .a (v 0 - E) δ + UZ n a v h (v 0 - E) δ) / D)| ≤ r) (hb : |m.b - -((preZ .b (v 0 - E) δ + UZ n b v h (v 0 - E) δ) / D)| ≤ r)
    (hc : |m.c - -((preZ .c (v 0 - E) δ + UZ n c v h (v 0 - E) δ) / D)| ≤ r) (hd : |m.d - -((preZ .d (v 0 - E) δ + UZ n d v h (v 0 - E) δ) / D)| ≤ r) :
    sz (mapOf m (y 0, dy 0) - (z δ, dz δ)) ≤ (2 * r + locZ nV N n a b c d M * (h ^ (N - 2) + ε) * δ) * sz (y 0, dy 0) := by
  obtain ⟨k1, k2⟩ := local_errorZ C hN hM hv h0 h1 hE hε hV hs hz z0 dz0 hδ
  have r0 : 0 ≤ r := (abs_nonneg _).trans ha
  have y1 := le_sz1 (y 0, dy 0)
  have y2 := le_sz2 (y 0, dy 0)
  simp only at y1 y2
  change _ ≤ locZ nV N n a b c d M * (h ^ (N - 2) + ε) * δ * sz (y 0, dy 0) at k1
  change _ ≤ locZ nV N n a b c d M * (h ^ (N - 2) + ε) * δ * sz (y 0, dy 0) at k2
  have comb : ∀ {A B A' B' Z : ℝ}, |A - A'| ≤ r → |B - B'| ≤ r → |(A' * y 0 + B' * dy 0) - Z| ≤ locZ nV N n a b c d M * (h ^ (N - 2) + ε) * δ * sz (y 0, dy 0) →
      |A * y 0 + B * dy 0 - Z| ≤ (2 * r + locZ nV N n a b c d M * (h ^ (N - 2) + ε) * δ) * sz (y 0, dy 0) := by
    intro A B A' B' Z hA hB hZ
    have e1 : A * y 0 + B * dy 0 - Z = ((A' * y 0 + B' * dy 0) - Z) + ((A - A') * y 0 + (B - B') * dy 0) := by ring
    rw [e1]
    have e2 := abs_add_le ((A - A') * y 0) ((B - B') * dy 0)
    rw [abs_mul, abs_mul] at e2
    have e3 := mul_le_mul hA y1 (abs_nonneg _) r0
    have e4 := mul_le_mul hB y2 (abs_nonneg _) r0
    refine (abs_add_le _ _).trans ?_
    linarith
  refine sz_le ?_ ?_
  · refine comb (A' := _) (B' := _) ha hb ?_
    refine le_trans (le_of_eq (congrArg abs ?_)) k1
    simp only [preZ]; ring
  · refine comb hc hd ?_
    refine le_trans (le_of_eq (congrArg abs ?_)) k2
    simp only [preZ, WZ]; push_cast; ring

theorem exists_pos_bound {M : ℝ} (hM : 0 ≤ M) : ∃ P : ℝ, 0 ≤ P ∧ (∀ (p : Cp), ∀ i < 10, bnd M (hp p.sel i) + bndD M (hp p.sel i) ≤ P) ∧
    (∀ (p : Cp), ∀ i < 9, bnd M (rp p.sel i) + bndD M (rp p.sel i) ≤ P) ∧ ∀ p, BH p M ≤ P := by
  obtain ⟨P1, h1, k1⟩ := exists_bound (fun p i => bnd M (hp p.sel i) + bndD M (hp p.sel i)) (fun p i => add_nonneg (bnd_nonneg hM _) (bndD_nonneg hM _)) 10
  obtain ⟨P2, h2, k2⟩ := exists_bound (fun p i => bnd M (rp p.sel i) + bndD M (rp p.sel i)) (fun p i => add_nonneg (bnd_nonneg hM _) (bndD_nonneg hM _)) 9
  obtain ⟨P3, h3, k3⟩ := exists_bound (fun p _ => BH p M) (fun p _ => BH_nonneg p hM) 1
  exact ⟨P1 + P2 + P3, by positivity, fun p i hi => (k1 p i hi).trans (by linarith), fun p i hi => (k2 p i hi).trans (by linarith),
    fun p => (k3 p 0 one_pos).trans (by linarith)⟩

/-- **Full step, energy derivative.** -/
theorem full_dnear (M : ℝ) (hM : 1 ≤ M) : ∃ C : ℝ, 0 ≤ C ∧ ∀ (σ τ : ℝ) (eta : ℕ → ℝ → ℕ → ℝ) (v : ℕ → ℝ) (W : ℝ → ℝ) (a b E : ℝ),
    EtaWithin σ eta → σ ≤ 1 → τ ≤ 1 → a < b → b - a ≤ 1 → SmoothOn M W a b → CoeffWithin τ W a b v → |E| ≤ M →
    DNear W E a b (mapOf (calcH eta (mkSec (b - a) v) E).dt) a b (C * ((b - a) ^ 17 + (b - a) * τ + σ)) := by
  have hM0 : 0 ≤ M := by linarith
  set B := M1 M with hBdef
  have m1 : 1 ≤ B := by rw [hBdef]; unfold M1; linarith
  have hB0 : 0 ≤ B := by linarith
  obtain ⟨P, hP0, hP1, -, hP3⟩ := exists_pos_bound hB0
  set L := locZ 15 20 11 (ex extA) (ex extB) (ex extC) (ex extD) B with hL
  have hL0 : 0 ≤ L := locZ_nonneg _ _ _ _ _ _ _ hB0
  set A := B + 1 + (10 : ℕ) * (P * (Real.exp B + 2)) + P with hA
  have ex := Real.exp_pos B
  have hA0 : 0 ≤ A := by positivity
  refine ⟨2 * A * (1 + 31 * M) + L * (1 + 32 * M), by positivity, ?_⟩
  intro σ τ eta v W a b E he hσ1 hτ1 hab h1 hW hv hE y dy z dz hy hz z1 z2
  have hσ0 := he.nonneg
  have hτ0 := hv.nonneg
  obtain ⟨w, v0, wM, vE, wE, vB, wB, vd, ws, -⟩ := sampled hM hab h1 hW hv hτ1 hE
  set h := b - a with hh
  have h0 : 0 < h := by linarith
  have ht0 := tau_nonneg hM0 hτ0 h0.le
  set t := tau M τ h with ht
  have hε : M * h ^ 16 + t ≤ B := by
    have := tau_bound hM hτ1 h0.le h1
    have p : h ^ 16 ≤ 1 := pow_le_one₀ h0.le h1
    have := mul_le_mul_of_nonneg_left p hM0
    rw [hBdef]; unfold M1; linarith
  have p19 : h ^ 19 ≤ h ^ 17 := pow_le_pow_of_le_one h0.le h1 (by norm_num)
  have ent : ∀ p : Cp, |p.of (calcH eta (mkSec h v) E).dt - -((preZ p (w 0 - E) h + UZ 11 (PL.ex (extT p)) w h (w 0 - E) h) / D)| ≤ A * (h ^ 17 + h * t + σ) := by
    intro p
    have k1 := body_dt_close p (N := 10) (by norm_num) (hor := (mkSec h v).coeffH) (e := eta 10 ((v 0 - E) * (h * h))) (f := hp p.sel) (v := v) (w := w)
      (u := v 0 - E) m1 h0 h1 ⟨h0.le, le_rfl⟩ vE hσ1 wM vB wB vd (fun i hi => he 10 (by norm_num) _ i hi)
      (fun i => by rw [coeffH_of, div_self h0.ne']) (fun i _ => hp_good p i) (fun i _ => hp_hom p i) (hP1 p) (hp9_ord p)
    have k2 := tHZ_close p m1 wM h0 h1 wE
    have e0 : (calcH eta (mkSec h v) E).dt = (body 10 (mkSec h v).coeffH (eta 10 ((v 0 - E) * (h * h))) (v 0 - E) h).dt := rfl
    rw [e0, ← v0]
    rw [← v0] at k2
    set Q := p.of (body 10 (mkSec h v).coeffH (eta 10 ((v 0 - E) * (h * h))) (v 0 - E) h).dt
    have e1 : Q - -((preZ p (v 0 - E) h + UZ 11 (PL.ex (extT p)) w h (v 0 - E) h) / D) =
      (Q - -((preZ p (v 0 - E) h + UZ 10 (hp p.sel) w h (v 0 - E) h) / D)) + -((UZ 10 (hp p.sel) w h (v 0 - E) h - UZ 11 (PL.ex (extT p)) w h (v 0 - E) h) / D) := by ring
    rw [e1]
    have k3 : |-((UZ 10 (hp p.sel) w h (v 0 - E) h - UZ 11 (PL.ex (extT p)) w h (v 0 - E) h) / D)| ≤ P * h ^ 17 := by
      rw [abs_neg, abs_div, abs_of_pos D_pos]
      refine (div_le_self (abs_nonneg _) D_ge).trans (k2.trans ?_)
      exact mul_le_mul (hP3 p) p19 (by positivity) hP0
    refine (abs_add_le _ _).trans ((add_le_add k1 k3).trans ?_)
    have e2 : A * (h ^ 17 + h * t + σ) = (B + 1 + (10 : ℕ) * (P * (Real.exp B + 2))) * (h ^ 17 + h * t + σ) + (P * h ^ 17 + P * (h * t + σ)) := by rw [hA]; ring
    have e3 : 0 ≤ P * (h * t + σ) := by positivity
    rw [e2]; linarith
  have key := dmap_near ext_cert2 (by norm_num) m1 wM h0 h1 wE hε (fun x hx => by rw [dV_eq 15 (by norm_num)]; exact ws x hx) hy.shift hz.shift
    (by simpa using z1) (by simpa using z2) ⟨h0.le, le_rfl⟩ (ent .a) (ent .b) (ent .c) (ent .d)
  have e1 : a + h = b := by rw [hh]; ring
  simp only [add_zero, e1] at key
  refine key.trans (mul_le_mul_of_nonneg_right ?_ (sz_nonneg _))
  have tl := tau_le hM hτ0 h0.le
  rw [← ht] at tl
  have s0 : 0 ≤ h ^ 17 + h * τ + σ := by positivity
  have q1 : h ^ 17 + h * t + σ ≤ (1 + 31 * M) * (h ^ 17 + h * τ + σ) := by
    have : 0 ≤ h * τ := by positivity
    have : 0 ≤ M * σ := by positivity
    linarith
  have q2 : (h ^ (20 - 2) + (M * h ^ 16 + t)) * h ≤ (1 + 32 * M) * (h ^ 17 + h * τ + σ) := by
    have a1 : (h ^ (20 - 2) + (M * h ^ 16 + t)) * h = h ^ 19 + M * h ^ 17 + h * t := by ring
    rw [a1]
    have : 0 ≤ h * τ := by positivity
    have : 0 ≤ M * σ := by positivity
    have : 0 ≤ M * (h * τ) := by positivity
    linarith
  have q3 := mul_le_mul_of_nonneg_left q1 hA0
  have q4 := mul_le_mul_of_nonneg_left q2 hL0
  have q5 : (2 * A * (1 + 31 * M) + L * (1 + 32 * M)) * (h ^ 17 + h * τ + σ) = 2 * (A * ((1 + 31 * M) * (h ^ 17 + h * τ + σ))) + L * ((1 + 32 * M) * (h ^ 17 + h * τ + σ)) := by ring
  rw [q5, mul_assoc L]
  linarith

/-- **Partial step, energy derivative.** -/
theorem delta_dnear (M : ℝ) (hM : 1 ≤ M) : ∃ C : ℝ, 0 ≤ C ∧ ∀ (σ τ : ℝ) (eta : ℕ → ℝ → ℕ → ℝ) (v : ℕ → ℝ) (W : ℝ → ℝ) (a b E δ : ℝ),
    EtaWithin σ eta → σ ≤ 1 → τ ≤ 1 → a < b → b - a ≤ 1 → SmoothOn M W a b → CoeffWithin τ W a b v → |E| ≤ M → 0 < δ → δ ≤ b - a →
    DNear W E a b (mapOf (calcDelta eta (mkSec (b - a) v) E δ).dt) a (a + δ) (C * ((b - a) ^ 15 + (b - a) * τ + σ)) := by
  have hM0 : 0 ≤ M := by linarith
  set B := M1 M with hBdef
  have m1 : 1 ≤ B := by rw [hBdef]; unfold M1; linarith
  have hB0 : 0 ≤ B := by linarith
  obtain ⟨P, hP0, -, hP2, -⟩ := exists_pos_bound hB0
  set L := locZ 13 17 9 (rp Entry4.a) (rp Entry4.b) (rp Entry4.c) (rp Entry4.d) B with hL
  have hL0 : 0 ≤ L := locZ_nonneg _ _ _ _ _ _ _ hB0
  set A := B + 1 + (9 : ℕ) * (P * (Real.exp B + 2)) with hA
  have ex := Real.exp_pos B
  have hA0 : 0 ≤ A := by positivity
  refine ⟨2 * A * (1 + 31 * M) + L * (1 + 1024 * M), by positivity, ?_⟩
  intro σ τ eta v W a b E δ he hσ1 hτ1 hab h1 hW hv hE δ0 δ1 y dy z dz hy hz z1 z2
  have hσ0 := he.nonneg
  have hτ0 := hv.nonneg
  obtain ⟨w, v0, wM, vE, wE, vB, wB, vd, -, ws⟩ := sampled hM hab h1 hW hv hτ1 hE
  set h := b - a with hh
  have h0 : 0 < h := by linarith
  have ht0 := tau_nonneg hM0 hτ0 h0.le
  set t := tau M τ h with ht
  have hε : 993 * M * h ^ 14 + t ≤ B := by
    have := tau_bound hM hτ1 h0.le h1
    have p : h ^ 14 ≤ 1 := pow_le_one₀ h0.le h1
    have := mul_le_mul_of_nonneg_left p (show 0 ≤ 993 * M by linarith)
    rw [hBdef]; unfold M1; linarith
  have hδ : δ ∈ Set.Icc 0 h := ⟨δ0.le, δ1⟩
  have ent : ∀ p : Cp, |p.of (calcDelta eta (mkSec h v) E δ).dt - -((preZ p (w 0 - E) δ + UZ 9 (rp p.sel) w h (w 0 - E) δ) / D)| ≤ A * (h ^ 17 + h * t + σ) := by
    intro p
    have k1 := body_dt_close p (N := 9) (by norm_num) (hor := fun i => horner ((mkSec h v).coeff i) δ hmaxDelta) (e := eta 9 ((v 0 - E) * (δ * δ))) (f := rp p.sel) (v := v) (w := w)
      (u := v 0 - E) m1 h0 h1 hδ vE hσ1 wM vB wB vd (fun i hi => he 9 (by norm_num) _ i hi)
      (fun i => hor_eq p h0.ne' v i δ) (fun i _ => rp_good p i) (fun i hi => rp_hom p hi) (hP2 p) (rp8_ord p)
    rw [← v0]
    exact k1
  have key := dmap_near cert2 (by norm_num) m1 wM h0 h1 wE hε (fun x hx => by rw [dV_eq 13 (by norm_num)]; exact ws x hx) hy.shift hz.shift
    (by simpa using z1) (by simpa using z2) hδ (ent .a) (ent .b) (ent .c) (ent .d)
  simp only [add_zero] at key
  refine key.trans (mul_le_mul_of_nonneg_right ?_ (sz_nonneg _))
  have tl := tau_le hM hτ0 h0.le
  rw [← ht] at tl
  have p17 : h ^ 17 ≤ h ^ 15 := pow_le_pow_of_le_one h0.le h1 (by norm_num)
  have p16 : h ^ 16 ≤ h ^ 15 := pow_le_pow_of_le_one h0.le h1 (by norm_num)
  have p15 : 0 ≤ h ^ 15 := by positivity
  have Mp : M * h ^ 17 ≤ M * h ^ 15 := mul_le_mul_of_nonneg_left p17 hM0
  have s0 : 0 ≤ h ^ 15 + h * τ + σ := by positivity
  have q1 : h ^ 17 + h * t + σ ≤ (1 + 31 * M) * (h ^ 15 + h * τ + σ) := by
    have : 0 ≤ h * τ := by positivity
    have : 0 ≤ M * σ := by positivity
    linarith
  have q2 : (h ^ (17 - 2) + (993 * M * h ^ 14 + t)) * δ ≤ (1 + 1024 * M) * (h ^ 15 + h * τ + σ) := by
    have a0 : (h ^ (17 - 2) + (993 * M * h ^ 14 + t)) * δ ≤ (h ^ (17 - 2) + (993 * M * h ^ 14 + t)) * h := mul_le_mul_of_nonneg_left δ1 (by positivity)
    have a1 : (h ^ (17 - 2) + (993 * M * h ^ 14 + t)) * h = h ^ 16 + 993 * (M * h ^ 15) + h * t := by ring
    rw [a1] at a0
    refine a0.trans ?_
    have : 0 ≤ h * τ := by positivity
    have : 0 ≤ M * σ := by positivity
    have : 0 ≤ M * (h * τ) := by positivity
    have : 0 ≤ M * h ^ 15 := by positivity
    linarith
  have q3 := mul_le_mul_of_nonneg_left q1 hA0
  have q4 := mul_le_mul_of_nonneg_left q2 hL0
  have q5 : (2 * A * (1 + 31 * M) + L * (1 + 1024 * M)) * (h ^ 15 + h * τ + σ) = 2 * (A * ((1 + 31 * M) * (h ^ 15 + h * τ + σ))) + L * ((1 + 1024 * M) * (h ^ 15 + h * τ + σ)) := by ring
  rw [q5, mul_assoc L]
  linarith

end Verif.CalcT
