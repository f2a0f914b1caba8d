import Verif.Lemmas.EnergyChain

/-!
# One sector at two energies
-/
namespace Verif.Solver
open Verif.Mesh Verif.YT Verif.CalcT Verif.Propag Verif.Formulas Verif.Legendre Verif.Spec

/-- A full crossing of a sector is one multiplication (or division) by its transfer matrix. -/
theorem propagate_full {s : PSec ℝ} (hs : s.h = s.max - s.min) (hlt : s.min < s.max) (hd : s.dir ≠ .none) {a b : ℝ}
    (ha : a ≤ s.min ∨ s.max ≤ a) (hb : b ≤ s.min ∨ s.max ≤ b) :
    ((∀ E useH y, s.propagate E useH y a b = (y, 0)) ∧ cl s.min s.max a = cl s.min s.max b) ∨
    (|cl s.min s.max b - cl s.min s.max a| = s.max - s.min ∧
      ((s.dir = .forward ∧ cl s.min s.max a = s.min ∧ cl s.min s.max b = s.max ∧ ∀ E useH y, (s.propagate E useH y a b).1 = (s.tr E (s.max - s.min) useH).mul y) ∨
       (s.dir = .forward ∧ cl s.min s.max a = s.max ∧ cl s.min s.max b = s.min ∧ ∀ E useH y, (s.propagate E useH y a b).1 = (s.tr E (s.max - s.min) useH).div y) ∨
       (s.dir = .backward ∧ cl s.min s.max a = s.max ∧ cl s.min s.max b = s.min ∧ ∀ E useH y, (s.propagate E useH y a b).1 = ((s.tr E (s.max - s.min) useH).mul y.reverse).reverse) ∨
       (s.dir = .backward ∧ cl s.min s.max a = s.min ∧ cl s.min s.max b = s.max ∧ ∀ E useH y, (s.propagate E useH y a b).1 = ((s.tr E (s.max - s.min) useH).div y.reverse).reverse))) := by
  by_cases hskip : (s.max ≤ a ∧ s.max ≤ b) ∨ (a ≤ s.min ∧ b ≤ s.min)
  · left
    refine ⟨fun E useH y => (propagate_cases s E useH a b y).1 hskip, ?_⟩
    rcases hskip with h | h
    · rw [cl_high hlt.le h.1, cl_high hlt.le h.2]
    · rw [cl_low h.1, cl_low h.2]
  · right
    have hprop := fun E useH y => (propagate_cases s E useH a b y).2 hskip
    have hw : ∀ {d : ℝ}, s.max - s.min ≤ d → (if s.max - s.min < d then s.max - s.min else d) = s.max - s.min := by
      intro d hd'
      split
      · rfl
      · linarith
    rcases ha with ha | ha
    · have hb2 : s.max ≤ b := by
        rcases hb with hb | hb
        · exact absurd (Or.inr ⟨ha, hb⟩) hskip
        · exact hb
      refine ⟨by rw [cl_low ha, cl_high hlt.le hb2, abs_of_pos (by linarith)], ?_⟩
      cases hdir : s.dir with
      | none => exact absurd hdir hd
      | forward =>
        left
        refine ⟨rfl, cl_low ha, cl_high hlt.le hb2, ?_⟩
        intro E useH y
        rw [hprop, if_pos hdir, if_pos (by linarith), if_neg (by linarith)]
        unfold PSec.propagateDelta
        have h1 : (0 : ℝ) ≤ b - s.min := by linarith
        simp only [hdir, ccmp_le, ccmp_lt, decide_eq_true_eq, h1, if_true, reduceCtorEq, if_false, hs, hw (show s.max - s.min ≤ b - s.min by linarith)]
      | backward =>
        right; right; right
        refine ⟨rfl, cl_low ha, cl_high hlt.le hb2, ?_⟩
        intro E useH y
        rw [hprop, if_neg (by rw [hdir]; decide), if_neg (by linarith), if_pos (by linarith)]
        unfold PSec.propagateDelta
        have h1 : ¬ (0 : ℝ) ≤ -(s.max - a) := by linarith
        simp only [hdir, ccmp_le, ccmp_lt, decide_eq_true_eq, h1, if_true, if_false, hs, neg_neg, hw (show s.max - s.min ≤ s.max - a by linarith)]
    · have hb2 : b ≤ s.min := by
        rcases hb with hb | hb
        · exact hb
        · exact absurd (Or.inl ⟨ha, hb⟩) hskip
      refine ⟨by rw [cl_low hb2, cl_high hlt.le ha, abs_of_neg (by linarith)]; ring, ?_⟩
      cases hdir : s.dir with
      | none => exact absurd hdir hd
      | forward =>
        right; left
        refine ⟨rfl, cl_high hlt.le ha, cl_low hb2, ?_⟩
        intro E useH y
        rw [hprop, if_pos hdir, if_neg (by linarith), if_pos (by linarith)]
        unfold PSec.propagateDelta
        have h1 : ¬ (0 : ℝ) ≤ s.min - a := by linarith
        simp only [hdir, ccmp_le, ccmp_lt, decide_eq_true_eq, h1, if_false, reduceCtorEq, hs, hw (show s.max - s.min ≤ -(s.min - a) by linarith)]
      | backward =>
        right; right; left
        refine ⟨rfl, cl_high hlt.le ha, cl_low hb2, ?_⟩
        intro E useH y
        rw [hprop, if_neg (by rw [hdir]; decide), if_pos (by linarith), if_neg (by linarith)]
        unfold PSec.propagateDelta
        have h1 : (0 : ℝ) ≤ -(b - s.max) := by linarith
        simp only [hdir, ccmp_le, ccmp_lt, decide_eq_true_eq, h1, if_true, hs, hw (show s.max - s.min ≤ -(b - s.max) by linarith)]

/-- Bounded growth of a map close to the exact one. -/
theorem Near.growth {V : ℝ → ℝ} {E a b K x x' e : ℝ} {S : ℝ × ℝ → ℝ × ℝ} (h : Near V E a b S x x' e) (he : 0 ≤ e) (hK : 1 ≤ K)
    (hV : ContinuousOn V (Set.Icc a b)) (hq : ∀ x ∈ Set.Icc a b, |V x - E| ≤ K) (hx : x ∈ Set.Icc a b) (hx' : x' ∈ Set.Icc a b) (u : ℝ × ℝ) :
    sz (S u) ≤ Real.exp (K * |x' - x| + e) * sz u := by
  obtain ⟨z, dz, hz, z1, z2⟩ := exists_solution_at hV (E := E) hx u
  have h1 := h z dz hz
  have h2 := flow_bound hK hq hz hx hx'
  have e1 : (z x, dz x) = u := by rw [z1, z2]
  rw [e1] at h1 h2
  have h3 := sz_le_add (S u) (z x', dz x')
  have h4 : sz (S u) ≤ (Real.exp (K * |x' - x|) + e) * sz u := by linarith
  refine h4.trans (mul_le_mul_of_nonneg_right ?_ (sz_nonneg _))
  rw [Real.exp_add]
  have k1 := Real.add_one_le_exp e
  have k2 : 1 ≤ Real.exp (K * |x' - x|) := Real.one_le_exp (by positivity)
  nlinarith

/-- **One sector at two energies.** -/
theorem sector_energy (M : ℝ) (hM : 1 ≤ M) : ∃ C : ℝ, 1 ≤ C ∧ ∀ (eps σ τ : ℝ) (eta : ℕ → ℝ → ℕ → ℝ) (v : ℕ → ℝ) (W : ℝ → ℝ) (v0M E E' : ℝ) (s : Sec ℝ) (useH : Bool) (a b : ℝ),
    EtaWithin σ eta → σ ≤ 1 → τ ≤ 1 → 0 ≤ eps → eps < s.max - s.min → s.max - s.min ≤ 1 → SmoothOn M W s.min s.max → CoeffWithin τ (oriented W s) s.min s.max v → |E| ≤ M → |E'| ≤ M →
    s.dir ≠ .none → (a ≤ s.min ∨ s.max ≤ a) → (b ≤ s.min ∨ s.max ≤ b) →
    EStep (fun c => ((sectorOf eps eta v v0M s).propagate E useH c a b).1) (fun c => ((sectorOf eps eta v v0M s).propagate E' useH c a b).1) (E' - E)
      (C * (|cl s.min s.max b - cl s.min s.max a| + σ))
      (C * (((E' - E) ^ 2 + |E' - E| * ((s.max - s.min) ^ 16 + τ)) * |cl s.min s.max b - cl s.min s.max a| + σ)) := by
  obtain ⟨C1, hC1, near⟩ := sector_near M hM
  obtain ⟨C2, hC2, en⟩ := full_energy M hM
  refine ⟨2 * M + 2 * C1 + 2 * C2, by linarith, ?_⟩
  intro eps σ τ eta v W v0M E E' s useH a b he hσ1 hτ1 heps hw hw1 hW hv hE hE' hd ha hb
  have hσ0 := he.nonneg
  have hτ0 := hv.nonneg
  have hlt : s.min < s.max := by linarith
  set h := s.max - s.min with hh
  have h0 : 0 < h := by linarith
  set X := |cl s.min s.max b - cl s.min s.max a| with hX
  have X0 : 0 ≤ X := abs_nonneg _
  have ca := cl_mem hlt.le a
  have cb := cl_mem hlt.le b
  have grow : ∀ F, |F| ≤ M → ∀ c, sz (pr ((sectorOf eps eta v v0M s).propagate F useH c a b).1) ≤ Real.exp ((2 * M + 2 * C1 + 2 * C2) * (X + σ)) * sz (pr c) := by
    intro F hF c
    obtain ⟨S, hS, -, n⟩ := near eps σ τ 1 eta v W v0M F s useH a b he hσ1 hτ1 zero_le_one le_rfl
      (fun _ _ => ⟨fun h => by linarith, fun h => by linarith⟩) (fun _ _ => ⟨fun h => by linarith, fun h => by linarith⟩) heps hw hw1 hW hv hF hd
    have n := n ha hb
    rw [← hX, ← hh] at n
    rw [hS]
    refine (Near.growth n (by positivity) (show 1 ≤ 2 * M by linarith) hW.continuousOn (pot_bound hW hF) ca cb (pr c)).trans
      (mul_le_mul_of_nonneg_right (Real.exp_le_exp.mpr ?_) (sz_nonneg _))
    have i1 : h ^ ord useH ≤ 1 := pow_le_one₀ h0.le hw1
    have i2 : (h ^ ord useH + τ) * X ≤ 2 * X := mul_le_mul_of_nonneg_right (by linarith) X0
    have i3 := mul_le_mul_of_nonneg_left (add_le_add i2 (le_refl σ)) (show 0 ≤ C1 by linarith)
    have e1 : (2 * M + 2 * C1 + 2 * C2) * (X + σ) = 2 * M * X + C1 * (2 * X + σ) + (2 * M * σ + C1 * σ + 2 * C2 * X + 2 * C2 * σ) := by ring
    have e2 : 0 ≤ 2 * M * σ + C1 * σ + 2 * C2 * X + 2 * C2 * σ := by positivity
    linarith
  have hΔ := abs_nonneg (E' - E)
  have hr0 : 0 ≤ ((E' - E) ^ 2 + |E' - E| * (h ^ 16 + τ)) * X + σ := by positivity
  refine ⟨by positivity, by positivity, ?_, grow E hE, grow E' hE'⟩
  rcases propagate_full (s := sectorOf eps eta v v0M s) rfl hlt hd ha hb with ⟨hid, -⟩ | ⟨hfull, hcase⟩
  · simp only [hid]
    exact (elin_id _).mono (by positivity) (by positivity)
  · have hXh : X = h := hfull
    -- the entries of the transfer matrix
    have hW' : SmoothOn M (oriented W s) s.min s.max := by
      unfold oriented
      split
      · exact hW.reflect
      · exact hW
    have ent := fun p => en eps σ τ eta v (oriented W s) s.min s.max E E' useH p he hσ1 hτ1 heps hw hw1 hW' hv hE hE'
    have e1 : ∀ F, (sectorOf eps eta v v0M s).tr F (s.max - s.min) useH = calculateTWith eps eta (mkSec (s.max - s.min) v) F (s.max - s.min) useH := fun F => rfl
    obtain ⟨m1, m2⟩ := elin_mul (A := (sectorOf eps eta v v0M s).tr E (s.max - s.min) useH) (A' := (sectorOf eps eta v v0M s).tr E' (s.max - s.min) useH)
      (Δ := E' - E) (fun p => (ent p).1) (fun p => (ent p).2)
    have b1 : 2 * (C2 * (s.max - s.min)) ≤ (2 * M + 2 * C1 + 2 * C2) * (X + σ) := by
      rw [hXh, ← hh]
      have : 0 ≤ 2 * M * h + 2 * C1 * h + (2 * M + 2 * C1 + 2 * C2) * σ := by positivity
      linarith
    have b2 : 2 * (C2 * ((s.max - s.min) * (E' - E) ^ 2 + |E' - E| * ((s.max - s.min) ^ 17 + (s.max - s.min) * τ) + σ)) ≤
        (2 * M + 2 * C1 + 2 * C2) * (((E' - E) ^ 2 + |E' - E| * (h ^ 16 + τ)) * X + σ) := by
      rw [hXh] at hr0 ⊢
      rw [← hh]
      have q1 : h * (E' - E) ^ 2 + |E' - E| * (h ^ 17 + h * τ) + σ = ((E' - E) ^ 2 + |E' - E| * (h ^ 16 + τ)) * h + σ := by ring
      rw [q1, ← mul_assoc]
      exact mul_le_mul_of_nonneg_right (by linarith) hr0
    rcases hcase with ⟨-, -, -, hc⟩ | ⟨-, -, -, hc⟩ | ⟨-, -, -, hc⟩ | ⟨-, -, -, hc⟩
    · simp only [hc]; exact m1.mono b1 b2
    · simp only [hc]; exact m2.mono b1 b2
    · simp only [hc]; exact m1.reverse.mono b1 b2
    · simp only [hc]; exact m2.reverse.mono b1 b2

end Verif.Solver
