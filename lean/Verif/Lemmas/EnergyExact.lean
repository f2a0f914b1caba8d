import Verif.Lemmas.EnergyOde
import Verif.Lemmas.EnergyMesh

/-!
# The propagated energy derivatives converge to the exact ones
-/
namespace Verif.Solver
open Verif.Mesh Verif.YT Verif.CalcT Verif.Propag Verif.Formulas Verif.Legendre Verif.Spec

/-- One step that follows the solution `y` and its energy derivative `z` from `A` to `B`. -/
def DStep (st : Y ℝ → Y ℝ) (y dy z dz : ℝ → ℝ) (A B L r : ℝ) : Prop :=
  0 ≤ r ∧ ∃ (W : ℝ → ℝ) (E a b K : ℝ) (S D : ℝ × ℝ → ℝ × ℝ), (∀ c, pr (st c) = S (pr c)) ∧ (∀ c, pe (st c) = S (pe c) + D (pr c)) ∧ Lin D ∧
    Near W E a b S A B r ∧ DNear W E a b D A B r ∧ (∀ u, sz (D u) ≤ L * sz u) ∧ ContinuousOn W (Set.Icc a b) ∧ (∀ x ∈ Set.Icc a b, |W x - E| ≤ K) ∧
    1 ≤ K ∧ 2 * K * |B - A| + r ≤ L ∧ A ∈ Set.Icc a b ∧ B ∈ Set.Icc a b ∧ SolvesOn W E a b y dy ∧ EnergyOn W E a b y z dz

/-- The invariant along a chain of steps: sizes of the exact values `yv`, `zv` and errors of the computed ones. -/
structure DInv (s t g X R : ℝ) (c : Y ℝ) (yv zv : ℝ × ℝ) : Prop where
  s0 : 0 ≤ s
  t0 : 0 ≤ t
  g1 : 1 ≤ g
  X0 : 0 ≤ X
  R0 : 0 ≤ R
  u : sz yv ≤ g * s
  w : sz zv ≤ g * (t + X * s)
  e : sz (pr c - yv) ≤ g * R * s
  q : sz (pe c - zv) ≤ g * R * (t + (1 + X) * s)

theorem energy_between {V : ℝ → ℝ} {E a b K : ℝ} {y dy z dz : ℝ → ℝ} (hK : 1 ≤ K) (hV : ContinuousOn V (Set.Icc a b)) (hq : ∀ x ∈ Set.Icc a b, |V x - E| ≤ K)
    (hy : SolvesOn V E a b y dy) (hz : EnergyOn V E a b y z dz) {A B : ℝ} (hA : A ∈ Set.Icc a b) (hB : B ∈ Set.Icc a b) :
    sz (z B, dz B) ≤ Real.exp (2 * K * |B - A|) * (sz (z A, dz A) + |B - A| * sz (y A, dy A)) := by
  have hl : a ≤ min A B := le_min hA.1 hB.1
  have hr : max A B ≤ b := max_le hA.2 hB.2
  have hsub : Set.Icc (min A B) (max A B) ⊆ Set.Icc a b := Set.Icc_subset_Icc hl hr
  have hyb : ∀ t ∈ Set.Icc (min A B) (max A B), |y t| ≤ Real.exp (K * |B - A|) * sz (y A, dy A) := by
    intro t ht
    refine (le_sz1 (y t, dy t)).trans ((flow_bound hK hq hy hA (hsub ht)).trans (mul_le_mul_of_nonneg_right (Real.exp_le_exp.mpr ?_) (sz_nonneg _)))
    refine mul_le_mul_of_nonneg_left ?_ (by linarith)
    exact Set.abs_sub_left_of_mem_uIcc ht
  have eb := energy_bound hK (hV.mono hsub) (fun x hx => hq x (hsub hx)) (hz.mono hl hr) (mul_nonneg (Real.exp_pos _).le (sz_nonneg _)) hyb
    (x := A) (x' := B) ⟨min_le_left _ _, le_max_left _ _⟩ ⟨min_le_right _ _, le_max_right _ _⟩
  refine eb.trans ?_
  have e1 : Real.exp (2 * K * |B - A|) = Real.exp (K * |B - A|) * Real.exp (K * |B - A|) := by rw [← Real.exp_add]; congr 1; ring
  have x1 : 1 ≤ Real.exp (K * |B - A|) := Real.one_le_exp (by positivity)
  rw [e1, mul_assoc (Real.exp (K * |B - A|)) (Real.exp (K * |B - A|))]
  refine mul_le_mul_of_nonneg_left ?_ (Real.exp_pos _).le
  have := sz_nonneg (z A, dz A)
  have : sz (z A, dz A) ≤ Real.exp (K * |B - A|) * sz (z A, dz A) := le_mul_of_one_le_left (sz_nonneg _) x1
  linarith

theorem DInv.step {s t g X R L r A B : ℝ} {c : Y ℝ} {st : Y ℝ → Y ℝ} {y dy z dz : ℝ → ℝ} (h : DInv s t g X R c (y A, dy A) (z A, dz A))
    (hs : DStep st y dy z dz A B L r) : DInv s t (g * Real.exp L) (X + L) (R + r) (st c) (y B, dy B) (z B, dz B) := by
  obtain ⟨r0, W, E, a, b, K, S, D, eS, eD, lD, nS, nD, bD, cW, bW, hK, hL, hA, hB, hy, hz⟩ := hs
  obtain ⟨s0, t0, g1, X0, R0, hu, hw, he, hq⟩ := h
  have d0 : 0 ≤ |B - A| := abs_nonneg _
  have kd : |B - A| ≤ K * |B - A| := le_mul_of_one_le_left d0 hK
  have kd0 : 0 ≤ K * |B - A| := by positivity
  have L0 : 0 ≤ L := by linarith
  have hdL : |B - A| ≤ L := by linarith
  set x := Real.exp L with hx
  have x1 : 1 ≤ x := Real.one_le_exp L0
  have x0 : 0 ≤ x := by linarith
  have g0 : 0 ≤ g := by linarith
  have up : ∀ {z : ℝ}, 0 ≤ z → z ≤ x * z := fun hz => le_mul_of_one_le_left hz x1
  have xe1 : Real.exp (K * |B - A|) ≤ x := Real.exp_le_exp.mpr (by linarith)
  have xe2 : Real.exp (2 * K * |B - A|) ≤ x := Real.exp_le_exp.mpr (by linarith)
  have xe3 : Real.exp (K * |B - A|) + r ≤ x := by
    have k1 : Real.exp (K * |B - A| + r) ≤ x := Real.exp_le_exp.mpr (by linarith)
    rw [Real.exp_add] at k1
    have k2 := Real.add_one_le_exp r
    have k3 : 1 ≤ Real.exp (K * |B - A|) := Real.one_le_exp kd0
    nlinarith
  have gs : 0 ≤ g * s := by positivity
  -- the homogeneous part of the energy derivative
  obtain ⟨z0, dz0, hz0, z01, z02⟩ := exists_energy cW hA hy (0, 0)
  simp only at z01 z02
  have hh := hz.sub hz0
  have n1 := nS.step r0 hK cW bW hA hB hy (pr c)
  have n2 := nS.step r0 hK cW bW hA hB hh (pe c)
  have n3 := nD y dy z0 dz0 hy hz0 z01 z02
  simp only [z01, z02, sub_zero] at n2
  refine ⟨s0, t0, one_le_mul_of_one_le_of_one_le g1 x1, by linarith, by linarith, ?_, ?_, ?_, ?_⟩
  · refine (flow_bound hK bW hy hA hB).trans ((mul_le_mul xe1 hu (sz_nonneg _) x0).trans (le_of_eq (by ring)))
  · have k1 := energy_between hK cW bW hy hz hA hB
    have k2 : |B - A| * sz (y A, dy A) ≤ L * (g * s) := mul_le_mul hdL hu (sz_nonneg _) L0
    have k3 := mul_le_mul xe2 (add_le_add hw k2) (add_nonneg (sz_nonneg _) (mul_nonneg d0 (sz_nonneg _))) x0
    exact (k1.trans k3).trans (le_of_eq (by ring))
  · rw [eS]
    have k1 := mul_le_mul xe3 he (sz_nonneg _) x0
    have k2 := mul_le_mul_of_nonneg_left hu r0
    have k3 := up (mul_nonneg r0 gs)
    have k4 : g * x * (R + r) * s = x * (g * R * s) + x * (r * (g * s)) := by ring
    linarith
  · rw [eD]
    have e1 : S (pe c) + D (pr c) - (z B, dz B) = (S (pe c) - (z B - z0 B, dz B - dz0 B)) + (D (pr c - (y A, dy A)) + (D (y A, dy A) - (z0 B, dz0 B))) := by
      rw [lD.sub]; ext <;> simp <;> ring
    rw [e1]
    have k0 := sz_add (S (pe c) - (z B - z0 B, dz B - dz0 B)) (D (pr c - (y A, dy A)) + (D (y A, dy A) - (z0 B, dz0 B)))
    have k0' := sz_add (D (pr c - (y A, dy A))) (D (y A, dy A) - (z0 B, dz0 B))
    have k1 := mul_le_mul xe3 hq (sz_nonneg _) x0
    have k2 := mul_le_mul_of_nonneg_left hw r0
    have k3 := (bD (pr c - (y A, dy A))).trans (mul_le_mul_of_nonneg_left he L0)
    have k4 := n3.trans (mul_le_mul_of_nonneg_left hu r0)
    have p1 : r * (g * (t + X * s)) + r * (g * s) = r * (g * (t + (1 + X) * s)) := by ring
    have p2 := up (show 0 ≤ r * (g * (t + (1 + X) * s)) by positivity)
    have p3 := up (show 0 ≤ L * (g * R * s) by positivity)
    have p4 : 0 ≤ x * (g * r * L * s) := by positivity
    have p5 : g * x * (R + r) * (t + (1 + (X + L)) * s) = x * (g * R * (t + (1 + X) * s)) + x * (r * (g * (t + (1 + X) * s))) + x * (L * (g * R * s)) + x * (g * r * L * s) := by ring
    linarith

/-- The invariant along the visited sectors. -/
theorem DInv.fold {s t : ℝ} {L r p q : ℕ → ℝ} {st : Y ℝ → ℕ → Y ℝ} {y dy z dz : ℝ → ℝ} : ∀ (l : List ℕ) {g X R x0 x1 : ℝ} {c : Y ℝ},
    DInv s t g X R c (y x0, dy x0) (z x0, dz x0) → (∀ k ∈ l, DStep (fun c => st c k) y dy z dz (p k) (q k) (L k) (r k)) → Linked p q x0 l x1 →
    DInv s t (g * Real.exp (l.map L).sum) (X + (l.map L).sum) (R + (l.map r).sum) (l.foldl st c) (y x1, dy x1) (z x1, dz x1)
  | [], g, X, R, x0, x1, c, h, _, hl => by
    simp only [Linked] at hl
    subst hl
    simpa using h
  | k :: l, g, X, R, x0, x1, c, h, hk, hl => by
    obtain ⟨h1, h2⟩ := hl
    subst h1
    have := DInv.fold l (h.step (hk k (by simp))) (fun m hm => hk m (List.mem_cons_of_mem _ hm)) h2
    rw [List.foldl_cons, List.map_cons, List.map_cons, List.sum_cons, List.sum_cons, Real.exp_add, ← mul_assoc, ← add_assoc, ← add_assoc]
    exact this

/-- **A full crossing: energy derivative.** -/
theorem tr_dnear (M : ℝ) (hM : 1 ≤ M) : ∃ C : ℝ, 1 ≤ C ∧ ∀ (eps σ τ : ℝ) (eta : ℕ → ℝ → ℕ → ℝ) (v : ℕ → ℝ) (W : ℝ → ℝ) (a b E : ℝ) (useH : Bool),
    EtaWithin σ eta → σ ≤ 1 → τ ≤ 1 → 0 ≤ eps → eps < b - a → b - a ≤ 1 → SmoothOn M W a b → CoeffWithin τ W a b v → |E| ≤ M →
    DNear W E a b (mapOf (calculateTWith eps eta (mkSec (b - a) v) E (b - a) useH).dt) a b (C * ((b - a) ^ (ord useH + 1) + (b - a) * τ + σ)) ∧
    ∀ p : Cp, |p.of (calculateTWith eps eta (mkSec (b - a) v) E (b - a) useH).dt| ≤ C * (b - a) := by
  obtain ⟨C1, h1, full⟩ := full_dnear M hM
  obtain ⟨C2, h2, part⟩ := delta_dnear M hM
  obtain ⟨C3, h3, en⟩ := full_energy M hM
  refine ⟨C1 + C2 + C3, by linarith, ?_⟩
  intro eps σ τ eta v W a b E useH he hσ1 hτ1 heps hw hw1 hW hv hE
  have hσ0 := he.nonneg
  have hτ0 := hv.nonneg
  have hlt : a < b := by linarith
  set h := b - a with hh
  have h0 : 0 < h := by linarith
  refine ⟨?_, fun p => (en eps σ τ eta v W a b E E useH p he hσ1 hτ1 heps hw hw1 hW hv hE hE).2.trans (mul_le_mul_of_nonneg_right (by linarith) h0.le)⟩
  have hcalc : calculateTWith eps eta (mkSec h v) E h useH = if useH then calcH eta (mkSec h v) E else calcDelta eta (mkSec h v) E h := by
    have hs : (mkSec h v : TSec ℝ).h = h := rfl
    unfold calculateTWith Eta.absK
    simp only [ccmp_lt, ccmp_le, hs, h0.not_gt, decide_false, Bool.false_eq_true, if_false, sub_self, lt_irrefl, heps, decide_true, Bool.and_true]
    rw [if_neg (by simpa using hw)]
  rw [hcalc]
  have s0 : ∀ n : ℕ, 0 ≤ h ^ n + h * τ + σ := fun n => by positivity
  cases useH with
  | true =>
    have := full σ τ eta v W a b E he hσ1 hτ1 hlt hw1 hW hv hE
    simp only [if_true, ord]
    exact this.mono (mul_le_mul_of_nonneg_right (by linarith) (s0 17))
  | false =>
    have := part σ τ eta v W a b E (b - a) he hσ1 hτ1 hlt hw1 hW hv hE h0 le_rfl
    rw [add_sub_cancel] at this
    simp only [Bool.false_eq_true, if_false, ord]
    exact this.mono (mul_le_mul_of_nonneg_right (by linarith) (s0 15))

end Verif.Solver
