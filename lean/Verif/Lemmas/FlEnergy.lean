import Verif.Lemmas.FlConverge
import Verif.Lemmas.EnergyDMesh

/-!
# Energy derivatives in finite precision
-/
namespace Verif.Fp
open Verif.Mesh Verif.YT Verif.CalcT Verif.Propag Verif.Solver Verif.Spec Verif.Legendre

/-! ### A chain of perturbed steps -/

/-- The step `c ↦ c'` differs from an exact step `c ↦ d` by at most `ρ`, relative to the sizes of the values and their energy derivatives. -/
structure Pert (ρ mu : ℝ) (c d c' : Y ℝ) : Prop where
  p : sz (pr c' - pr d) ≤ ρ * (sz (pr c) + mu)
  e : sz (pe c' - pe d) ≤ ρ * (sz (pe c) + sz (pr c) + mu)

theorem DInv.pert {s t g X R ρ mu L r A B : ℝ} {c c' : Y ℝ} {st : Y ℝ → Y ℝ} {y dy z dz : ℝ → ℝ} (h : DInv s t g X R c (y A, dy A) (z A, dz A))
    (hs : DStep st y dy z dz A B L r) (hρ : 0 ≤ ρ) (hmu : 0 ≤ mu) (hms : mu ≤ s) (hp : Pert ρ mu c (st c) c') :
    DInv s t (g * Real.exp (L + 2 * ρ)) (X + L) (R + (r + 3 * ρ)) c' (y B, dy B) (z B, dz B) := by
  have H := DInv.step h hs
  obtain ⟨s0, t0, g1, X0, R0, hu, hw, he, hq⟩ := h
  have r0 : 0 ≤ r := hs.1
  obtain ⟨-, t0', G1, X0', R0', Hu, Hw, He, Hq⟩ := H
  have g0 : 0 ≤ g := by linarith
  have eL : Real.exp (L + 2 * ρ) = Real.exp L * Real.exp (2 * ρ) := Real.exp_add _ _
  obtain ⟨G, hG⟩ : ∃ G, G = g * Real.exp L := ⟨_, rfl⟩
  rw [← hG] at G1 Hu Hw He Hq
  have G0 : 0 ≤ G := by linarith
  have L0 : 0 ≤ L := by
    obtain ⟨-, _, _, _, _, K, _, _, _, _, _, _, _, _, _, _, hK, hL, _⟩ := hs
    have : 0 ≤ 2 * K * |B - A| := by positivity
    linarith
  have gG : g ≤ G := by rw [hG]; exact le_mul_of_one_le_right g0 (Real.one_le_exp L0)
  obtain ⟨x, hx⟩ : ∃ x, x = Real.exp (2 * ρ) := ⟨_, rfl⟩
  have x1 : 1 + 2 * ρ ≤ x := by have := Real.add_one_le_exp (2 * ρ); linarith
  have eg : g * Real.exp (L + 2 * ρ) = G * x := by rw [eL, hG, hx]; ring
  rw [eg]
  have x1' : 1 ≤ x := by linarith
  have GG : G ≤ G * x := le_mul_of_one_le_right G0 x1'
  have sc : sz (pr c) ≤ g * ((1 + R) * s) := by
    have := sz_le_add (pr c) (y A, dy A)
    linarith only [this, hu, he, (by ring : g * ((1 + R) * s) = g * s + g * R * s)]
  have sz' : sz (pe c) ≤ g * ((1 + R) * (t + (1 + X) * s)) := by
    have := sz_le_add (pe c) (z A, dz A)
    have i : 0 ≤ g * s := by positivity
    linarith only [this, hw, hq, i, (by ring : g * ((1 + R) * (t + (1 + X) * s)) = g * (t + X * s) + g * s + g * R * (t + (1 + X) * s))]
  have mg : mu ≤ g * s := hms.trans (le_mul_of_one_le_left s0 g1)
  refine ⟨s0, t0, one_le_mul_of_one_le_of_one_le G1 x1', X0', by linarith, ?_, ?_, ?_, ?_⟩
  · exact Hu.trans (mul_le_mul_of_nonneg_right GG s0)
  · exact Hw.trans (mul_le_mul_of_nonneg_right GG (by positivity))
  · have k0 := sz_tri (pr c') (pr (st c)) (y B, dy B)
    have k1 : ρ * (sz (pr c) + mu) ≤ ρ * (G * ((2 + R) * s)) := by
      refine mul_le_mul_of_nonneg_left ?_ hρ
      have : g * ((2 + R) * s) ≤ G * ((2 + R) * s) := mul_le_mul_of_nonneg_right gG (by positivity)
      linarith only [this, sc, mg, (by ring : g * ((2 + R) * s) = g * ((1 + R) * s) + g * s)]
    have k2 : G * (1 + 2 * ρ) * (R + (r + 3 * ρ)) * s ≤ G * x * (R + (r + 3 * ρ)) * s := by
      refine mul_le_mul_of_nonneg_right (mul_le_mul_of_nonneg_right (mul_le_mul_of_nonneg_left x1 G0) (by positivity)) s0
    have k3 : G * (1 + 2 * ρ) * (R + (r + 3 * ρ)) * s = G * (R + r) * s + ρ * (G * ((2 + R) * s)) + G * s * (ρ + ρ * R + 2 * ρ * r + 6 * ρ ^ 2) := by ring
    have k4 : 0 ≤ G * s * (ρ + ρ * R + 2 * ρ * r + 6 * ρ ^ 2) := by positivity
    linarith only [k0, k1, k2, k3, k4, He, hp.p]
  · have k0 := sz_tri (pe c') (pe (st c)) (z B, dz B)
    obtain ⟨S, hS⟩ : ∃ S, S = t + (1 + (X + L)) * s := ⟨_, rfl⟩
    rw [← hS] at Hq ⊢
    have S0 : 0 ≤ S := by rw [hS]; positivity
    have sS : s ≤ S := by
      have : 0 ≤ (X + L) * s := by positivity
      linarith only [hS, this, t0]
    have tS : t + (1 + X) * s ≤ S := by
      have : 0 ≤ L * s := by positivity
      linarith only [hS, this]
    have k1 : ρ * (sz (pe c) + sz (pr c) + mu) ≤ ρ * (G * ((3 + 2 * R) * S)) := by
      refine mul_le_mul_of_nonneg_left ?_ hρ
      have a1 : g * ((3 + 2 * R) * S) ≤ G * ((3 + 2 * R) * S) := mul_le_mul_of_nonneg_right gG (by positivity)
      have a2 : g * ((1 + R) * s) ≤ g * ((1 + R) * S) := mul_le_mul_of_nonneg_left (mul_le_mul_of_nonneg_left sS (by positivity)) g0
      have a3 : g * ((1 + R) * (t + (1 + X) * s)) ≤ g * ((1 + R) * S) := mul_le_mul_of_nonneg_left (mul_le_mul_of_nonneg_left tS (by positivity)) g0
      have a4 : g * s ≤ g * S := mul_le_mul_of_nonneg_left sS g0
      linarith only [a1, a2, a3, a4, sc, sz', mg, (by ring : g * ((3 + 2 * R) * S) = g * ((1 + R) * S) + g * ((1 + R) * S) + g * S)]
    have k2 : G * (1 + 2 * ρ) * (R + (r + 3 * ρ)) * S ≤ G * x * (R + (r + 3 * ρ)) * S :=
      mul_le_mul_of_nonneg_right (mul_le_mul_of_nonneg_right (mul_le_mul_of_nonneg_left x1 G0) (by positivity)) S0
    have k3 : G * (1 + 2 * ρ) * (R + (r + 3 * ρ)) * S = G * (R + r) * S + ρ * (G * ((3 + 2 * R) * S)) + G * S * (2 * ρ * r + 6 * ρ ^ 2) := by ring
    have k4 : 0 ≤ G * S * (2 * ρ * r + 6 * ρ ^ 2) := by positivity
    linarith only [k0, k1, k2, k3, k4, Hq, hp.e]

/-- The invariant along the visited sectors, with perturbed steps. -/
theorem DInv.pfold {α : Type} {val : α → Y ℝ} {s t mu : ℝ} (hmu : 0 ≤ mu) (hms : mu ≤ s) {L r ρ p q : ℕ → ℝ} {sf : α → ℕ → α} {y dy z dz : ℝ → ℝ} : ∀ (l : List ℕ) {g X R x0 x1 : ℝ} {c : α},
    DInv s t g X R (val c) (y x0, dy x0) (z x0, dz x0) →
    (∀ k ∈ l, 0 ≤ ρ k ∧ ∃ st : Y ℝ → Y ℝ, DStep st y dy z dz (p k) (q k) (L k) (r k) ∧ ∀ c, Pert (ρ k) mu (val c) (st (val c)) (val (sf c k))) → Linked p q x0 l x1 →
    DInv s t (g * Real.exp (l.map fun k => L k + 2 * ρ k).sum) (X + (l.map L).sum) (R + (l.map fun k => r k + 3 * ρ k).sum) (val (l.foldl sf c)) (y x1, dy x1) (z x1, dz x1)
  | [], g, X, R, x0, x1, c, h, _, hl => by
    simp only [Linked] at hl
    subst hl
    simpa using h
  | k :: l, g, X, R, x0, x1, c, h, hk, hl => by
    obtain ⟨h1, h2⟩ := hl
    subst h1
    obtain ⟨ρ0, st, hst, hp⟩ := hk k (by simp)
    have := DInv.pfold hmu hms l (DInv.pert h hst ρ0 hmu hms (hp c)) (fun m hm => hk m (List.mem_cons_of_mem _ hm)) h2
    rw [List.foldl_cons, List.map_cons, List.map_cons, List.map_cons, List.sum_cons, List.sum_cons, List.sum_cons, Real.exp_add, ← mul_assoc, ← add_assoc, ← add_assoc]
    exact this

/-! ### One step in finite precision -/

variable {fl : ℝ → ℝ} {u mu w : ℝ}

/-- accuracy of the energy derivatives of a column -/
structure RelE (w s B : ℝ) (c : Y (Fl fl)) (c' : Y ℝ) : Prop where
  y : Rel w s B c.yE c'.yE
  dy : Rel w s B c.dyE c'.dyE

theorem RelE.reverse {s B : ℝ} {y : Y (Fl fl)} {y' : Y ℝ} (h : RelE w s B y y') : RelE w s B y.reverse y'.reverse := ⟨h.y, h.dy.neg⟩

theorem mul_relE (hA : Arith u mu w fl) {B z : ℝ} (b1 : 1 ≤ B) (hz : mu ≤ z) {m d : M2 (Fl fl)} {m' d' : M2 ℝ} (hm : RelM w 1 B m m') (hd : RelM w 1 B d d')
    {x y xE yE : Fl fl} {x' y' xE' yE' : ℝ} (hx : Rel w z 1 x x') (hy : Rel w z 1 y y') (hxE : Rel w z 1 xE xE') (hyE : Rel w z 1 yE yE') :
    Rel w z (768 * B) ((m.mulVec xE yE).1 + (d.mulVec x y).1) ((m'.mulVec xE' yE').1 + (d'.mulVec x' y').1) ∧
    Rel w z (768 * B) ((m.mulVec xE yE).2 + (d.mulVec x y).2) ((m'.mulVec xE' yE').2 + (d'.mulVec x' y').2) := by
  obtain ⟨a1, a2⟩ := mulVec_rel hA b1 hz hm hxE hyE
  obtain ⟨c1, c2⟩ := mulVec_rel hA b1 hz hd hx hy
  have e : 768 * B = 4 * (96 * B + 96 * B) := by ring
  rw [e]
  exact ⟨Rel.add hA hz (by linarith) (by linarith) a1 c1, Rel.add hA hz (by linarith) (by linarith) a2 c2⟩

theorem fullStep_relE (hA : Arith u mu w fl) {B z : ℝ} (b1 : 1 ≤ B) (hz : mu ≤ z) {s : PSec (Fl fl)} {s' : PSec ℝ} (hd : s.dir = s'.dir) {E : Fl fl} {useH up : Bool}
    (ht : RelT w 1 B (s.tr E s.h useH) (s'.tr E.val s'.h useH)) {y : Y (Fl fl)} {y' : Y ℝ} (hy : RelY w z 1 y y') (he : RelE w z 1 y y') :
    RelE w z (768 * B) (fullStep s E useH up y) (fullStep s' E.val useH up y') := by
  have mulE : ∀ {y : Y (Fl fl)} {y' : Y ℝ}, RelY w z 1 y y' → RelE w z 1 y y' → RelE w z (768 * B) ((s.tr E s.h useH).mul y) ((s'.tr E.val s'.h useH).mul y') :=
    fun hy he => ⟨(mul_relE hA b1 hz ht.t ht.dt hy.y hy.dy he.y he.dy).1, (mul_relE hA b1 hz ht.t ht.dt hy.y hy.dy he.y he.dy).2⟩
  have divE : ∀ {y : Y (Fl fl)} {y' : Y ℝ}, RelY w z 1 y y' → RelE w z 1 y y' → RelE w z (768 * B) ((s.tr E s.h useH).div y) ((s'.tr E.val s'.h useH).div y') :=
    fun hy he => ⟨(mul_relE hA b1 hz ht.t.adj ht.dt.adj hy.y hy.dy he.y he.dy).1, (mul_relE hA b1 hz ht.t.adj ht.dt.adj hy.y hy.dy he.y he.dy).2⟩
  unfold fullStep
  rw [hd]
  split
  · split
    · exact (divE hy.reverse he.reverse).reverse
    · exact (mulE hy.reverse he.reverse).reverse
  · split
    · exact mulE hy he
    · exact divE hy he

/-- constant of a step with its energy derivative -/
noncomputable def stepE (M : ℝ) : ℝ := 768 * bT (31 * M + 1) M

theorem stepE_nonneg {M : ℝ} (hM : 1 ≤ M) : 0 ≤ stepE M := by
  unfold stepE
  have hS : SecHyp 0 0 0 id (31 * M + 1) 1 (⟨1⟩ : Fl id) (fun _ => ⟨0⟩) := by
    refine ⟨⟨⟨fun x => by simp, monotone_id, fun x => rfl⟩, le_rfl, le_rfl, by norm_num, le_rfl, zero_le_one⟩, by linarith, one_pos, le_rfl, zero_le_one, ⟨by simp, by simp⟩, fun k => ?_⟩
    simp; linarith
  linarith [(bT_parts hS hM).1]

/-- the exact counterpart of the sector -/
noncomputable def exactSec (vs : Sec (Fl fl) → ℕ → Fl fl) (s : Sec (Fl fl)) : PSec ℝ := sectorOf 0 etaR (fun k => (vs s k).val) 0 (realSec s)

/-- **One sector in finite precision** against the same sector in exact arithmetic. -/
theorem sector_pert {M : ℝ} (hM : 1 ≤ M) {H σ τ : ℝ} {W : Sec ℝ → ℝ → ℝ} {dmin dmax eps : Fl fl} {l : List (Sec (Fl fl))}
    {eta : ℕ → Fl fl → ℕ → Fl fl} {vs : Sec (Fl fl) → ℕ → Fl fl} (th : Fl fl → Fl fl → Fl fl → Y (Fl fl) → Fl fl) (pru : Fl fl → Fl fl → Fl fl → Fl fl → Y (Fl fl) → Y (Fl fl) → Fl fl)
    (v0M : Fl fl) {E a b : Fl fl} {s : Sec (Fl fl)} (useH : Bool)
    (hF : FlFit M H u mu σ τ (6 * M * H) W dmin dmax eps l eta vs) (hσ0 : 0 ≤ σ) (h8 : u + σ ≤ 1 / 8) (hτ1 : τ ≤ 1) (hs : s ∈ l) (hE : |E.val| ≤ M)
    (ha : a.val ≤ s.min.val ∨ s.max.val ≤ a.val) (hb : b.val ≤ s.min.val ∨ s.max.val ≤ b.val) (c : Y (Fl fl)) :
    Pert (stepE M * (u + σ)) mu (valY c) ((exactSec vs s).propagate E.val useH (valY c) a.val b.val).1 (valY ((sectorGen eps eta th pru (vs s) v0M s).propagate E useH c a b).1) := by
  have hA := hF.arith hσ0 h8 hs
  have S := hF.sec hM hσ0 h8 hτ1 hs
  have hm := List.mem_map_of_mem (f := realSec) hs
  have hlt : s.min.val < s.max.val := by have := S.h0; linarith
  obtain ⟨b1, -, -⟩ := bT_parts S hM
  set sF := sectorGen eps eta th pru (vs s) v0M s with hsF
  set sR := exactSec vs s with hsR
  have eF : EdgeOk sF := edge_fl hA sF rfl hlt (by have := hF.wide s hs; have := hF.eps0; show 0 < (s.max - s.min).val; linarith)
  have eR : EdgeOk sR := edge_real sR rfl hlt
  have dF : sF.dir ≠ .none := hF.fit.directed _ hm
  have dR : sR.dir ≠ .none := hF.fit.directed _ hm
  have hT := calculateT_full_rel S hM hE hF.eta (by linarith [hF.u0]) (hF.argument hM hσ0 h8 hτ1 hs hE) hF.eps0 (hF.wide s hs) useH
  have hT' : RelT (u + σ) 1 (bT (31 * M + 1) M) (sF.tr E sF.h useH) (sR.tr E.val sR.h useH) := hT
  have w0 := hA.w0
  have mu0 := hA.mu0
  have se := stepE_nonneg hM
  have n1 := sz_nonneg (pr (valY c))
  have n2 := sz_nonneg (pe (valY c))
  have p1 := le_sz1 (pr (valY c))
  have p2 := le_sz2 (pr (valY c))
  have p3 := le_sz1 (pe (valY c))
  have p4 := le_sz2 (pe (valY c))
  simp only [pr, pe, valY] at p1 p2 p3 p4 n1 n2
  have hfull : ∀ up, Pert (stepE M * (u + σ)) mu (valY c) (fullStep sR E.val useH up (valY c)) (valY (fullStep sF E useH up c)) := by
    intro up
    refine ⟨?_, ?_⟩
    · obtain ⟨z, hz⟩ : ∃ z, z = sz (pr (valY c)) + mu := ⟨_, rfl⟩
      rw [← hz]
      simp only [pr, valY] at hz
      have hz0 : 0 ≤ z := by linarith
      have hmz : mu ≤ z := by linarith
      have hyy : RelY (u + σ) z 1 c (valY c) :=
        ⟨Rel.exact hA hz0 zero_le_one (by rw [one_mul]; linarith), Rel.exact hA hz0 zero_le_one (by rw [one_mul]; linarith)⟩
      have := fullStep_relY hA b1 hmz (s := sF) (s' := sR) rfl (up := up) hT'.t hyy
      have e : 96 * bT (31 * M + 1) M * z * (u + σ) ≤ stepE M * (u + σ) * z := by
        have i : 0 ≤ bT (31 * M + 1) M * (z * (u + σ)) := by positivity
        unfold stepE
        linarith only [i, (by ring : 768 * bT (31 * M + 1) M * (u + σ) * z = 768 * (bT (31 * M + 1) M * (z * (u + σ)))), (by ring : 96 * bT (31 * M + 1) M * z * (u + σ) = 96 * (bT (31 * M + 1) M * (z * (u + σ))))]
      exact (sz_le this.y.2 this.dy.2).trans e
    · obtain ⟨z, hz⟩ : ∃ z, z = sz (pe (valY c)) + sz (pr (valY c)) + mu := ⟨_, rfl⟩
      rw [← hz]
      simp only [pr, pe, valY] at hz
      have hz0 : 0 ≤ z := by linarith
      have hmz : mu ≤ z := by linarith
      have hyy : RelY (u + σ) z 1 c (valY c) :=
        ⟨Rel.exact hA hz0 zero_le_one (by rw [one_mul]; linarith), Rel.exact hA hz0 zero_le_one (by rw [one_mul]; linarith)⟩
      have hee : RelE (u + σ) z 1 c (valY c) :=
        ⟨Rel.exact hA hz0 zero_le_one (by rw [one_mul]; linarith), Rel.exact hA hz0 zero_le_one (by rw [one_mul]; linarith)⟩
      have := fullStep_relE hA b1 hmz (s := sF) (s' := sR) rfl (up := up) hT' hyy hee
      refine (sz_le this.y.2 this.dy.2).trans (le_of_eq ?_)
      unfold stepE; ring
  have hid : Pert (stepE M * (u + σ)) mu (valY c) (valY c) (valY c) := by
    have z0 : sz (0 : ℝ × ℝ) = 0 := by simp [sz]
    refine ⟨?_, ?_⟩ <;> rw [sub_self, z0] <;> have := sz_nonneg (pr (valY c)) <;> have := sz_nonneg (pe (valY c)) <;> positivity
  obtain ⟨f1, f2, f3, f4⟩ := propagate_edge sF eF dF E useH c a b
  obtain ⟨r1, r2, r3, r4⟩ := propagate_edge sR eR dR E.val useH (valY c) a.val b.val
  have m1 : sF.min.val = s.min.val := rfl
  have m2 : sF.max.val = s.max.val := rfl
  have m3 : sR.min = s.min.val := rfl
  have m4 : sR.max = s.max.val := rfl
  simp only [Fl.le_def, ccmp_le, decide_eq_true_eq, m1, m2, m3, m4] at f1 f2 f3 f4 r1 r2 r3 r4
  rcases ha with ha | ha <;> rcases hb with hb | hb
  · rw [f3 ha hb, r3 ha hb]; exact hid
  · rw [f1 ha hb, r1 ha hb]; exact hfull true
  · rw [f2 ha hb, r2 ha hb]; exact hfull false
  · rw [f4 ha hb, r4 ha hb]; exact hid

/-! ### The walk over the mesh in finite precision -/

/-- `propagate` between mesh points is a chain of steps through sectors. -/
theorem walk_fl {M H σ τ R : ℝ} {W : Sec ℝ → ℝ → ℝ} {dmin dmax eps : Fl fl} {r : BuildResult (Fl fl)} {eta : ℕ → Fl fl → ℕ → Fl fl} {vs : Sec (Fl fl) → ℕ → Fl fl}
    (th : Fl fl → Fl fl → Fl fl → Y (Fl fl) → Fl fl) (pru : Fl fl → Fl fl → Fl fl → Fl fl → Y (Fl fl) → Y (Fl fl) → Fl fl) (pi : Fl fl) {a b : Fl fl} (useH : Bool)
    (hF : FlFit M H u mu σ τ R W dmin dmax eps r.sectors eta vs) (ha : IsBoundary (bounds (realMesh r.sectors)) a.val) (hb : IsBoundary (bounds (realMesh r.sectors)) b.val) :
    ∃ (l : List ℕ) (p q : ℕ → ℝ) (v0P : Fl fl), Linked p q a.val l b.val ∧ (l.map fun k => |q k - p k|).sum ≤ dmax.val - dmin.val ∧ l.length ≤ r.sectors.length ∧
      (∀ k ∈ l, ∃ hk : k < r.sectors.length, p k = cl (r.sectors[k]).min.val (r.sectors[k]).max.val a.val ∧ q k = cl (r.sectors[k]).min.val (r.sectors[k]).max.val b.val ∧
        (a.val ≤ (r.sectors[k]).min.val ∨ (r.sectors[k]).max.val ≤ a.val) ∧ (b.val ≤ (r.sectors[k]).min.val ∨ (r.sectors[k]).max.val ≤ b.val) ∧
        ∀ E c, (constructGen eps eta th pru vs dmin dmax r).stepY E useH a b c k = ((sectorGen eps eta th pru (vs r.sectors[k]) v0P r.sectors[k]).propagate E useH c a b).1) ∧
      ∀ E c, ∃ θ, (constructGen eps eta th pru vs dmin dmax r).propagate pi E c a b useH = .ok (l.foldl ((constructGen eps eta th pru vs dmin dmax r).stepY E useH a b) c, θ) := by
  -- the two problems
  set P := constructGen eps eta th pru vs dmin dmax r with hP
  set rR : BuildResult ℝ := ⟨realMesh r.sectors, r.matchIndex⟩ with hrR
  set Q := constructOf 0 etaR (fun s k => (vs (flSec s) k).val) dmin.val dmax.val rR with hQ
  have hPm : P.mesh = r.sectors := by
    show List.map PSec.toSec (r.sectors.map _) = _
    rw [List.map_map]; exact List.map_id r.sectors
  have hQm : Q.mesh = realMesh r.sectors := construct_mesh _ _ _ _ _ _
  have hm : IsMesh P.mesh P.dmin P.dmax := by rw [hPm]; exact isMesh_fl hF.fit.mesh
  have hmQ : IsMesh Q.mesh Q.dmin Q.dmax := by rw [hQm]; exact hF.fit.mesh
  obtain ⟨v0Q, hsQ⟩ := construct_secs 0 etaR (fun s k => (vs (flSec s) k).val) dmin.val dmax.val rR
  rw [← hQ] at hsQ
  have hlenP : P.secs.length = r.sectors.length := by show (r.sectors.map _).length = _; rw [List.length_map]
  have hlenQ : Q.secs.length = r.sectors.length := by rw [hsQ, List.length_map]; show (realMesh r.sectors).length = _; unfold realMesh; rw [List.length_map]
  obtain ⟨v0P, hsP⟩ : ∃ v0, P.secs = r.sectors.map (fun s => sectorGen eps eta th pru (vs s) v0 s) := ⟨_, rfl⟩
  have getP : ∀ k (hk : k < r.sectors.length), P.secs[k]'(by omega) = sectorGen eps eta th pru (vs r.sectors[k]) v0P r.sectors[k] := by
    intro k hk; simp only [hsP, List.getElem_map]
  have getQ : ∀ k (hk : k < r.sectors.length), (Q.secs[k]'(by omega)).toSec = realSec r.sectors[k] := by
    intro k hk; simp only [hsQ, List.getElem_map, hrR, realMesh]; rfl
  have bdIn : ∀ x : Fl fl, IsBoundary (bounds (realMesh r.sectors)) x.val → x.val ∈ Set.Icc dmin.val dmax.val ∧
      ∀ s ∈ r.sectors, x.val ≤ s.min.val ∨ s.max.val ≤ x.val := by
    intro x hx
    obtain ⟨s', hs', hx'⟩ := mesh_isBoundary hx
    obtain ⟨m, hm', rfl⟩ := List.getElem_of_mem hs'
    have lm : m < r.sectors.length := by unfold realMesh at hm'; rwa [List.length_map] at hm'
    have em : (realMesh r.sectors)[m] = realSec r.sectors[m] := by simp [realMesh]
    rw [em] at hx'
    have hl2 : m < Q.secs.length := by omega
    have rng := srange hmQ hl2
    have e1 : (Q.secs[m]).min = (realSec r.sectors[m]).min := by rw [getQ m lm]
    have e2 : (Q.secs[m]).max = (realSec r.sectors[m]).max := by rw [getQ m lm]
    constructor
    · have q1 : Q.dmin = dmin.val := rfl
      have q2 : Q.dmax = dmax.val := rfl
      rw [e1, e2, q1, q2] at rng
      rcases hx' with h | h <;> rw [h] <;> constructor <;> linarith [rng.1, rng.2.1, rng.2.2]
    · intro s hs
      obtain ⟨k, hk, rfl⟩ := List.getElem_of_mem hs
      have := mesh_point hmQ hl2 (show k < Q.secs.length by omega) (x := x.val) (by rw [getQ m lm]; exact hx')
      rwa [getQ k hk] at this
  have hA' : domainContains P.dmin P.dmax a = true := by
    have := (bdIn a ha).1
    simpa [domainContains, hP, constructGen] using this
  have hB' : domainContains P.dmin P.dmax b = true := by
    have := (bdIn b hb).1
    simpa [domainContains, hP, constructGen] using this
  obtain ⟨i, j, hi, hj, hia, hjb, hup, hdown, heq⟩ := propagate_closed P hm pi a b useH hA' hB'
  have hiN : i < r.sectors.length := by omega
  have hjN : j < r.sectors.length := by omega
  have cmin : ∀ k (hk : k < r.sectors.length), (P.secs[k]'(by omega)).min = (r.sectors[k]).min := by intro k hk; rw [getP k hk]; rfl
  have cmax : ∀ k (hk : k < r.sectors.length), (P.secs[k]'(by omega)).max = (r.sectors[k]).max := by intro k hk; rw [getP k hk]; rfl
  have dmin' : ∀ k (hk : k < r.sectors.length), (Q.secs[k]'(by omega)).min = (r.sectors[k]).min.val := by intro k hk; rw [getQ k hk]; rfl
  have dmax' : ∀ k (hk : k < r.sectors.length), (Q.secs[k]'(by omega)).max = (r.sectors[k]).max.val := by intro k hk; rw [getQ k hk]; rfl
  obtain ⟨hlink, hin⟩ := walk_linked hmQ (a := a.val) (b := b.val) (i := i) (j := j) (by omega) (by omega)
    (by simp only [Sec.contains, Fl.le_def, ccmp_le, cmin i hiN, cmax i hiN, dmin' i hiN, dmax' i hiN] at hia ⊢; exact hia)
    (by simp only [Sec.contains, Fl.le_def, ccmp_le, cmin j hjN, cmax j hjN, dmin' j hjN, dmax' j hjN] at hjb ⊢; exact hjb)
    (fun hlt => by
      obtain ⟨h1, h2⟩ := hup (by simpa using hlt)
      refine ⟨h1, fun k hk h3 h4 => ?_⟩
      have hkN : k < r.sectors.length := by omega
      have := h2 k (by omega) h3 h4
      rw [cmax k hkN] at this
      rw [dmax' k hkN]; simpa using this)
    (fun hlt => by
      obtain ⟨h1, h2⟩ := hdown (by simpa using hlt)
      refine ⟨h1, fun k hk h3 h4 => ?_⟩
      have hkN : k < r.sectors.length := by omega
      have := h2 k (by omega) h3 h4
      rw [cmin k hkN] at this
      rw [dmin' k hkN]; simpa using this)
  have posA : ∀ (x : ℝ) k (hk : k < r.sectors.length), pos Q x k = cl (r.sectors[k]).min.val (r.sectors[k]).max.val x := by
    intro x k hk
    rw [pos_eq Q x (by omega), dmin' k hk, dmax' k hk]
  have hvis : ∀ k ∈ visited i j, k < r.sectors.length := fun k hk => by
    obtain ⟨h, -⟩ := hin k hk; omega
  have hX : ((visited i j).map fun k => |pos Q b.val k - pos Q a.val k|).sum ≤ dmax.val - dmin.val := by
    have hsum := hlink.sum
    have hmono : ∀ k ∈ visited i j, (a.val ≤ b.val → pos Q a.val k ≤ pos Q b.val k) ∧ (b.val ≤ a.val → pos Q b.val k ≤ pos Q a.val k) := by
      intro k hk
      rw [posA _ k (hvis k hk), posA _ k (hvis k hk)]
      exact ⟨cl_mono, cl_mono⟩
    have ia := (bdIn a ha).1
    have ib := (bdIn b hb).1
    rcases le_total a.val b.val with hab | hab
    · have : ((visited i j).map fun k => |pos Q b.val k - pos Q a.val k|) = (visited i j).map fun k => pos Q b.val k - pos Q a.val k :=
        List.map_congr_left (fun k hk => abs_of_nonneg (by linarith [(hmono k hk).1 hab]))
      rw [this, hsum]; linarith [ia.1, ib.2]
    · have : ((visited i j).map fun k => |pos Q b.val k - pos Q a.val k|) = (visited i j).map fun k => -(pos Q b.val k - pos Q a.val k) :=
        List.map_congr_left (fun k hk => abs_of_nonpos (by linarith [(hmono k hk).2 hab]))
      have hneg : ((visited i j).map fun k => -(pos Q b.val k - pos Q a.val k)).sum = -((visited i j).map fun k => pos Q b.val k - pos Q a.val k).sum := by
        generalize visited i j = l
        induction l with
        | nil => simp
        | cons k l ih => simp only [List.map_cons, List.sum_cons, ih]; ring
      rw [this, hneg, hsum]; linarith [ia.2, ib.1]
  refine ⟨visited i j, pos Q a.val, pos Q b.val, v0P, hlink, hX, visited_length hiN hjN, fun k hk => ?_, fun E c => ?_⟩
  · have hkN := hvis k hk
    have hs : r.sectors[k] ∈ r.sectors := List.getElem_mem hkN
    refine ⟨hkN, posA _ k hkN, posA _ k hkN, (bdIn a ha).2 _ hs, (bdIn b hb).2 _ hs, fun E c => ?_⟩
    unfold Prob.stepY
    rw [List.getElem?_eq_getElem (by omega), getP k hkN]
  · refine ⟨(List.foldl (P.stepAt E useH a b) (c, P.initTheta pi E c a b i) (visited i j)).2, ?_⟩
    rw [heq E c]
    congr 1
    exact Prod.ext (fold_fst _ _ _ _ _ _ _) rfl

/-- **`propagate` between mesh points in finite precision: solution and energy derivative.** -/
theorem converge_dfl (M : ℝ) (hM : 1 ≤ M) : ∃ C : ℝ, 1 ≤ C ∧ ∀ (fl : ℝ → ℝ) (H u mu σ τ ε : ℝ) (W : Sec ℝ → ℝ → ℝ) (dmin dmax eps : Fl fl) (r : BuildResult (Fl fl))
    (eta : ℕ → Fl fl → ℕ → Fl fl) (vs : Sec (Fl fl) → ℕ → Fl fl) (th : Fl fl → Fl fl → Fl fl → Y (Fl fl) → Fl fl) (pru : Fl fl → Fl fl → Fl fl → Fl fl → Y (Fl fl) → Y (Fl fl) → Fl fl)
    (pi E a b : Fl fl) (useH : Bool) (y dy z dz : ℝ → ℝ) (c : Y (Fl fl)),
    FlFit M H u mu σ τ (6 * M * H) W dmin dmax eps r.sectors eta vs → 0 ≤ σ → τ + r.sectors.length * (u + σ) ≤ ε → ε ≤ 1 / 8 → dmax.val - dmin.val ≤ M → |E.val| ≤ M →
    SolvesMesh W E.val (realMesh r.sectors) y dy → EnergyMesh W E.val (realMesh r.sectors) y z dz →
    IsBoundary (bounds (realMesh r.sectors)) a.val → IsBoundary (bounds (realMesh r.sectors)) b.val → pr (valY c) = (y a.val, dy a.val) → pe (valY c) = (z a.val, dz a.val) →
    ∃ res, (constructGen eps eta th pru vs dmin dmax r).propagate pi E c a b useH = .ok res ∧
      sz (y b.val, dy b.val) ≤ C * (sz (y a.val, dy a.val) + mu) ∧ sz (z b.val, dz b.val) ≤ C * (sz (z a.val, dz a.val) + (sz (y a.val, dy a.val) + mu)) ∧
      sz (pr (valY res.1) - (y b.val, dy b.val)) ≤ C * (H ^ ord useH + ε) * (sz (y a.val, dy a.val) + mu) ∧
      sz (pe (valY res.1) - (z b.val, dz b.val)) ≤ C * (H ^ ord useH + ε) * (sz (z a.val, dz a.val) + (sz (y a.val, dy a.val) + mu)) := by
  obtain ⟨C, hC, key⟩ := sector_dstep M hM
  have hM0 : 0 ≤ M := by linarith
  have hse := stepE_nonneg hM
  obtain ⟨A, hA⟩ : ∃ A, A = stepE M := ⟨_, rfl⟩
  rw [← hA] at hse
  obtain ⟨L, hL⟩ : ∃ L, L = 4 * M + 2 * C := ⟨_, rfl⟩
  have hL1 : 1 ≤ L := by linarith
  obtain ⟨B, hB⟩ : ∃ B, B = C * M + 3 * A + 1 := ⟨_, rfl⟩
  have hB1 : 1 ≤ B := by have : 0 ≤ C * M := by positivity
                         linarith
  have hLM : 0 ≤ L * M := by positivity
  refine ⟨Real.exp (L * M + 2 * A) * (B * (1 + L * M)), one_le_mul_of_one_le_of_one_le (Real.one_le_exp (by positivity)) (one_le_mul_of_one_le_of_one_le hB1 (by linarith)), ?_⟩
  intro fl H u mu σ τ ε W dmin dmax eps r eta vs th pru pi E a b useH y dy z dz c hF hσ0 hε hε1 hd hE hy hz ha hb hc1 hc2
  have hN0 : 0 < r.sectors.length := by
    have := hF.fit.mesh.length_pos
    unfold realMesh at this; rwa [List.length_map] at this
  have hN1 : (1 : ℝ) ≤ r.sectors.length := by exact_mod_cast hN0
  have hu0 := hF.u0
  have hw0 : 0 ≤ u + σ := by linarith
  have hτ0 : 0 ≤ τ := (hF.coeff _ (List.getElem_mem hN0)).nonneg
  have hwN : u + σ ≤ r.sectors.length * (u + σ) := le_mul_of_one_le_left hw0 hN1
  have h8 : u + σ ≤ 1 / 8 := by linarith
  have hτ1 : τ ≤ 1 := by linarith
  have hε0 : 0 ≤ ε := by linarith
  have hmu := hF.mu0
  have hH0 : 0 ≤ H := by
    have h0 := hF.fit.mesh.length_pos
    have h1 := hF.fit.wide _ (List.getElem_mem h0)
    have h2 := hF.fit.narrow _ (List.getElem_mem h0)
    linarith
  have hHp : 0 ≤ H ^ ord useH := pow_nonneg hH0 _
  obtain ⟨l, p, q, v0P, hlink, hX, hlen, hst, hprop⟩ := walk_fl th pru pi useH hF ha hb
  obtain ⟨θ, hθ⟩ := hprop E c
  refine ⟨_, hθ, ?_⟩
  have het : EtaWithin 0 etaR := fun n _ Z i _ => by simp [etaR]
  obtain ⟨s, hs⟩ : ∃ s, s = sz (y a.val, dy a.val) + mu := ⟨_, rfl⟩
  obtain ⟨t, ht⟩ : ∃ t, t = sz (z a.val, dz a.val) := ⟨_, rfl⟩
  have hsy := sz_nonneg (y a.val, dy a.val)
  have hmus : mu ≤ s := by linarith
  have s0 : 0 ≤ s := by linarith
  have t0 : 0 ≤ t := by rw [ht]; exact sz_nonneg _
  have init : DInv s t 1 0 0 (valY c) (y a.val, dy a.val) (z a.val, dz a.val) := by
    have z0 : sz (0 : ℝ × ℝ) = 0 := by simp [sz]
    refine ⟨s0, t0, le_rfl, le_rfl, le_rfl, by linarith, by rw [← ht]; linarith, ?_, ?_⟩
    · rw [hc1, sub_self, z0]; simp
    · rw [hc2, sub_self, z0]; simp
  have fin := DInv.pfold (val := valY) (s := s) (t := t) hmu hmus (L := fun k => L * (|q k - p k| + 0)) (r := fun k => C * ((H ^ ord useH + τ) * |q k - p k| + 0))
    (ρ := fun _ => A * (u + σ)) (p := p) (q := q) (sf := (constructGen eps eta th pru vs dmin dmax r).stepY E useH a b) l init (fun k hk => by
      obtain ⟨hkN, e1, e2, b1, b2, hstep⟩ := hst k hk
      have hm : r.sectors[k] ∈ r.sectors := List.getElem_mem hkN
      have hmR := List.mem_map_of_mem (f := realSec) hm
      refine ⟨mul_nonneg hse hw0, fun c => ((exactSec vs r.sectors[k]).propagate E.val useH c a.val b.val).1, ?_, fun c => ?_⟩
      · have := key 0 0 τ etaR (fun j => (vs r.sectors[k] j).val) (W (realSec r.sectors[k])) 0 E.val H (realSec r.sectors[k]) useH a.val b.val y dy z dz het zero_le_one hτ1 le_rfl
          (hF.fit.wide _ hmR) (hF.fit.narrow _ hmR) hF.fit.small (hF.fit.smooth _ hmR) (hF.coeff _ hm) hE (hF.fit.directed _ hmR) b1 b2 (hy _ hmR) (hz _ hmR)
        rw [e1, e2, hL]
        exact this
      · rw [hstep, hA]
        exact sector_pert hM th pru v0P useH hF hσ0 h8 hτ1 hm hE b1 b2 c) hlink
  have sum1 : ∀ l : List ℕ, (l.map fun k => L * (|q k - p k| + 0) + 2 * (A * (u + σ))).sum = L * (l.map fun k => |q k - p k|).sum + 2 * A * (l.length * (u + σ)) := by
    intro l
    induction l with
    | nil => simp
    | cons k l ih => simp only [List.map_cons, List.sum_cons, ih, List.length_cons]; push_cast; ring
  have sum2 : ∀ l : List ℕ, (l.map fun k => L * (|q k - p k| + 0)).sum = L * (l.map fun k => |q k - p k|).sum := by
    intro l
    induction l with
    | nil => simp
    | cons k l ih => simp only [List.map_cons, List.sum_cons, ih]; ring
  have sum3 : ∀ l : List ℕ, (l.map fun k => C * ((H ^ ord useH + τ) * |q k - p k| + 0) + 3 * (A * (u + σ))).sum =
      C * (H ^ ord useH + τ) * (l.map fun k => |q k - p k|).sum + 3 * A * (l.length * (u + σ)) := by
    intro l
    induction l with
    | nil => simp
    | cons k l ih => simp only [List.map_cons, List.sum_cons, ih, List.length_cons]; push_cast; ring
  rw [sum1, sum2, sum3, one_mul, zero_add, zero_add] at fin
  obtain ⟨D, hD⟩ : ∃ D, D = (l.map fun k => |q k - p k|).sum := ⟨_, rfl⟩
  rw [← hD] at fin hX
  have D0 : 0 ≤ D := by rw [hD]; exact List.sum_nonneg (by intro x hx; obtain ⟨m, -, rfl⟩ := List.mem_map.mp hx; exact abs_nonneg _)
  have DM : D ≤ M := hX.trans hd
  obtain ⟨ν, hν⟩ : ∃ ν, ν = (l.length : ℝ) * (u + σ) := ⟨_, rfl⟩
  rw [← hν] at fin
  have ν0 : 0 ≤ ν := by rw [hν]; positivity
  have hνε : ν + τ ≤ ε := by
    have : (l.length : ℝ) * (u + σ) ≤ r.sectors.length * (u + σ) := mul_le_mul_of_nonneg_right (by exact_mod_cast hlen) hw0
    linarith
  have g1 : Real.exp (L * D + 2 * A * ν) ≤ Real.exp (L * M + 2 * A) := by
    refine Real.exp_le_exp.mpr (add_le_add (mul_le_mul_of_nonneg_left DM (by linarith)) ?_)
    calc 2 * A * ν ≤ 2 * A * 1 := mul_le_mul_of_nonneg_left (by linarith) (by linarith)
      _ = 2 * A := mul_one _
  have X1 : L * D ≤ L * M := mul_le_mul_of_nonneg_left DM (by linarith)
  have X0 : 0 ≤ L * D := by positivity
  have R1 : C * (H ^ ord useH + τ) * D + 3 * A * ν ≤ B * (H ^ ord useH + ε) := by
    have i1 : C * (H ^ ord useH + τ) * D ≤ C * (H ^ ord useH + ε) * M := mul_le_mul (mul_le_mul_of_nonneg_left (by linarith) (by linarith)) DM D0 (by positivity)
    have i2 : 3 * A * ν ≤ 3 * A * (H ^ ord useH + ε) := mul_le_mul_of_nonneg_left (by linarith) (by linarith)
    have i3 : B * (H ^ ord useH + ε) = C * (H ^ ord useH + ε) * M + 3 * A * (H ^ ord useH + ε) + (H ^ ord useH + ε) := by rw [hB]; ring
    linarith
  obtain ⟨-, -, G1, -, R0, hu, hw, he, hq⟩ := fin
  rw [← hs, ← ht]
  obtain ⟨g, hg⟩ : ∃ g, g = Real.exp (L * D + 2 * A * ν) := ⟨_, rfl⟩
  rw [← hg] at G1 hu hw he hq g1
  obtain ⟨G, hG⟩ : ∃ G, G = Real.exp (L * M + 2 * A) := ⟨_, rfl⟩
  rw [← hG] at g1
  rw [← hG]
  have G0 : 0 ≤ G := by linarith
  obtain ⟨κ, hκ⟩ : ∃ κ, κ = H ^ ord useH + ε := ⟨_, rfl⟩
  rw [← hκ] at R1 ⊢
  have κ0 : 0 ≤ κ := by rw [hκ]; linarith
  have st0 : 0 ≤ t + s := by linarith
  have hB0 : 0 ≤ B := by linarith
  have BL : 1 + L * M ≤ B * (1 + L * M) := le_mul_of_one_le_left (by linarith) hB1
  have tX : t + (1 + L * D) * s ≤ (1 + L * M) * (t + s) := by
    have i1 : L * D * s ≤ L * M * s := mul_le_mul_of_nonneg_right X1 s0
    have i2 : 0 ≤ L * M * t := by positivity
    linarith only [i1, i2, (by ring : (1 + L * M) * (t + s) = t + s + L * M * t + L * M * s), (by ring : t + (1 + L * D) * s = t + s + L * D * s)]
  refine ⟨?_, ?_, ?_, ?_⟩
  · refine hu.trans (mul_le_mul_of_nonneg_right (g1.trans ?_) s0)
    exact le_mul_of_one_le_right G0 (by linarith)
  · refine hw.trans ((mul_le_mul g1 (le_trans ?_ (tX.trans (mul_le_mul_of_nonneg_right BL st0))) (by positivity) G0).trans (le_of_eq (by ring)))
    linarith only [s0, (by ring : t + (1 + L * D) * s = t + L * D * s + s)]
  · refine he.trans ?_
    have i1 : g * (C * (H ^ ord useH + τ) * D + 3 * A * ν) * s ≤ G * (B * κ) * s := mul_le_mul_of_nonneg_right (mul_le_mul g1 R1 R0 G0) s0
    refine i1.trans ?_
    have i2 : 0 ≤ G * (B * κ) * s * (L * M) := by positivity
    linarith only [i2, (by ring : G * (B * (1 + L * M)) * κ * s = G * (B * κ) * s + G * (B * κ) * s * (L * M))]
  · refine hq.trans ?_
    have i1 := mul_le_mul (mul_le_mul g1 R1 R0 G0) tX (by positivity) (by positivity)
    exact i1.trans (le_of_eq (by ring))

end Verif.Fp
