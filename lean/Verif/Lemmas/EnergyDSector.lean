import Verif.Lemmas.EnergyExact

/-!
# One sector follows the solution and its energy derivative
-/
namespace Verif.Solver
open Verif.Mesh Verif.YT Verif.CalcT Verif.Propag Verif.Formulas Verif.Legendre Verif.Spec

theorem pe_reverse (y : Y ℝ) : pe y.reverse = flipY (pe y) := rfl
theorem flipY_add (u v : ℝ × ℝ) : flipY (u + v) = flipY u + flipY v := by ext <;> simp [flipY]; ring
theorem mapOf_adj (m : M2 ℝ) : mapOf m.adj = mv m.d (-m.b) (-m.c) m.a := rfl

/-- **One sector.** -/
theorem sector_dstep (M : ℝ) (hM : 1 ≤ M) : ∃ C : ℝ, 1 ≤ C ∧ ∀ (eps σ τ : ℝ) (eta : ℕ → ℝ → ℕ → ℝ) (v : ℕ → ℝ) (W : ℝ → ℝ) (v0M E H : ℝ) (s : Sec ℝ) (useH : Bool) (a b : ℝ)
    (y dy z dz : ℝ → ℝ),
    EtaWithin σ eta → σ ≤ 1 → τ ≤ 1 → 0 ≤ eps → eps < s.max - s.min → s.max - s.min ≤ H → H ≤ 1 → SmoothOn M W s.min s.max → CoeffWithin τ (oriented W s) s.min s.max v → |E| ≤ M →
    s.dir ≠ .none → (a ≤ s.min ∨ s.max ≤ a) → (b ≤ s.min ∨ s.max ≤ b) → SolvesOn W E s.min s.max y dy → EnergyOn W E s.min s.max y z dz →
    DStep (fun c => ((sectorOf eps eta v v0M s).propagate E useH c a b).1) y dy z dz (cl s.min s.max a) (cl s.min s.max b)
      ((4 * M + 2 * C) * (|cl s.min s.max b - cl s.min s.max a| + σ))
      (C * ((H ^ ord useH + τ) * |cl s.min s.max b - cl s.min s.max a| + σ)) := by
  obtain ⟨C1, hC1, near⟩ := sector_near M hM
  obtain ⟨C2, hC2, dn⟩ := tr_dnear M hM
  refine ⟨C1 + 2 * C2, by linarith, ?_⟩
  intro eps σ τ eta v W v0M E H s useH a b y dy z dz he hσ1 hτ1 heps hw hwH hH1 hW hv hE hd ha hb hy hz
  have hσ0 := he.nonneg
  have hτ0 := hv.nonneg
  have hlt : s.min < s.max := by linarith
  set h := s.max - s.min with hh
  have h0 : 0 < h := by linarith
  have hw1 : h ≤ 1 := hwH.trans hH1
  set X := |cl s.min s.max b - cl s.min s.max a| with hX
  have X0 : 0 ≤ X := abs_nonneg _
  have ca := cl_mem hlt.le a
  have cb := cl_mem hlt.le b
  obtain ⟨S, hS, -, n⟩ := near eps σ τ 1 eta v W v0M E s useH a b he hσ1 hτ1 zero_le_one le_rfl
    (fun _ _ => ⟨fun h => by linarith, fun h => by linarith⟩) (fun _ _ => ⟨fun h => by linarith, fun h => by linarith⟩) heps hw hw1 hW hv hE hd
  have n := n ha hb
  rw [← hX, ← hh] at n
  have q0 : 0 ≤ (h ^ ord useH + τ) * X + σ := by positivity
  have hq : (h ^ ord useH + τ) * X + σ ≤ (H ^ ord useH + τ) * X + σ := by
    have i1 := pow_le_pow_left₀ h0.le hwH (ord useH)
    have := mul_le_mul_of_nonneg_right (add_le_add i1 (le_refl τ)) X0
    linarith
  have qH : 0 ≤ (H ^ ord useH + τ) * X + σ := q0.trans hq
  have r0 : 0 ≤ (C1 + 2 * C2) * ((H ^ ord useH + τ) * X + σ) := by positivity
  have hrL : 2 * (2 * M) * X + (C1 + 2 * C2) * ((H ^ ord useH + τ) * X + σ) ≤ (4 * M + 2 * (C1 + 2 * C2)) * (X + σ) := by
    have i1 : H ^ ord useH ≤ 1 := pow_le_one₀ (h0.le.trans hwH) hH1
    have i2 : (H ^ ord useH + τ) * X ≤ 2 * X := mul_le_mul_of_nonneg_right (by linarith) X0
    have i3 := mul_le_mul_of_nonneg_left (add_le_add i2 (le_refl σ)) (show 0 ≤ C1 + 2 * C2 by linarith)
    have e2 : 0 ≤ 4 * M * σ + (C1 + 2 * C2) * σ := by positivity
    linarith
  have nS := n.mono ((mul_le_mul_of_nonneg_left hq (by linarith)).trans (mul_le_mul_of_nonneg_right (show C1 ≤ C1 + 2 * C2 by linarith) qH))
  have fin : ∀ D : ℝ × ℝ → ℝ × ℝ, (∀ c, pe ((sectorOf eps eta v v0M s).propagate E useH c a b).1 = S (pe c) + D (pr c)) → Lin D →
      DNear W E s.min s.max D (cl s.min s.max a) (cl s.min s.max b) ((C1 + 2 * C2) * ((H ^ ord useH + τ) * X + σ)) → (∀ u, sz (D u) ≤ (4 * M + 2 * (C1 + 2 * C2)) * (X + σ) * sz u) →
      DStep (fun c => ((sectorOf eps eta v v0M s).propagate E useH c a b).1) y dy z dz (cl s.min s.max a) (cl s.min s.max b)
      ((4 * M + 2 * (C1 + 2 * C2)) * (X + σ)) ((C1 + 2 * C2) * ((H ^ ord useH + τ) * X + σ)) := fun D h1 h2 h3 h4 =>
    ⟨r0, W, E, s.min, s.max, 2 * M, S, D, hS, h1, h2, nS, h3, h4, hW.continuousOn, pot_bound hW hE, by linarith, by rw [← hX]; exact hrL, ca, cb, hy, hz⟩
  have S_eq : ∀ u, S u = pr ((sectorOf eps eta v v0M s).propagate E useH ⟨u.1, u.2, 0, 0⟩ a b).1 := fun u => (hS ⟨u.1, u.2, 0, 0⟩).symm
  rcases propagate_full (s := sectorOf eps eta v v0M s) rfl hlt hd ha hb with ⟨hid, hab⟩ | ⟨hfull, hcase⟩
  · have hSid : ∀ u, S u = u := fun u => by rw [S_eq, hid]; rfl
    refine fin (fun _ => 0) (fun c => by rw [hid, hSid, add_zero]) lin_zero ?_ (fun u => ?_)
    · have : cl s.min s.max a = cl s.min s.max b := hab
      rw [this]
      exact (DNear.refl W E s.min s.max _).mono r0
    · have : sz ((fun _ => 0 : ℝ × ℝ → ℝ × ℝ) u) = 0 := by simp [sz]
      rw [this]
      have := sz_nonneg u
      positivity
  · have hXh : X = h := hfull
    have hW' : SmoothOn M (oriented W s) s.min s.max := by
      unfold oriented
      split
      · exact hW.reflect
      · exact hW
    obtain ⟨d1, d2⟩ := dn eps σ τ eta v (oriented W s) s.min s.max E useH he hσ1 hτ1 heps hw hw1 hW' hv hE
    have e1 : (sectorOf eps eta v v0M s).tr E (s.max - s.min) useH = calculateTWith eps eta (mkSec (s.max - s.min) v) E (s.max - s.min) useH := rfl
    rw [← e1] at d1 d2
    set A := (sectorOf eps eta v v0M s).tr E (s.max - s.min) useH with hA
    have bA : ∀ u, sz (mapOf A.dt u) ≤ (4 * M + 2 * (C1 + 2 * C2)) * (X + σ) * sz u := by
      intro u
      refine (sz_mapOf d2 u).trans (mul_le_mul_of_nonneg_right ?_ (sz_nonneg _))
      rw [hXh, ← hh]
      have : 0 ≤ 4 * M * h + 2 * C1 * h + 2 * C2 * h + (4 * M + 2 * (C1 + 2 * C2)) * σ := by positivity
      linarith
    have bA' : ∀ u, sz (mapOf A.dt.adj u) ≤ (4 * M + 2 * (C1 + 2 * C2)) * (X + σ) * sz u := by
      intro u
      refine (sz_mapOf (c := C2 * (s.max - s.min)) (fun p => ?_) u).trans (mul_le_mul_of_nonneg_right ?_ (sz_nonneg _))
      · cases p
        · exact d2 .d
        · have := d2 .b; simpa [Cp.of, M2.adj] using this
        · have := d2 .c; simpa [Cp.of, M2.adj] using this
        · exact d2 .a
      · rw [hXh, ← hh]
        have : 0 ≤ 4 * M * h + 2 * C1 * h + 2 * C2 * h + (4 * M + 2 * (C1 + 2 * C2)) * σ := by positivity
        linarith
    have er : 2 * (C2 * (h ^ (ord useH + 1) + h * τ + σ)) ≤ (C1 + 2 * C2) * ((H ^ ord useH + τ) * X + σ) := by
      have : h ^ (ord useH + 1) + h * τ + σ = (h ^ ord useH + τ) * X + σ := by rw [hXh, pow_succ]; ring
      rw [this, ← mul_assoc]
      exact (mul_le_mul_of_nonneg_left hq (by linarith)).trans (mul_le_mul_of_nonneg_right (by linarith) qH)
    have er' : C2 * (h ^ (ord useH + 1) + h * τ + σ) ≤ (C1 + 2 * C2) * ((H ^ ord useH + τ) * X + σ) := by
      have : 0 ≤ C2 * (h ^ (ord useH + 1) + h * τ + σ) := by positivity
      linarith
    have d1' := d1.mono er'
    have d3 := (DNear.adj d1 hW'.continuousOn ⟨hlt.le, le_rfl⟩).mono er
    have hmax : s.min + s.max - s.max = s.min := by ring
    have hmin : s.min + s.max - s.min = s.max := by ring
    rcases hcase with ⟨hdir, c1, c2, hc⟩ | ⟨hdir, c1, c2, hc⟩ | ⟨hdir, c1, c2, hc⟩ | ⟨hdir, c1, c2, hc⟩
    · have c1' : cl s.min s.max a = s.min := c1
      have c2' : cl s.min s.max b = s.max := c2
      have hor : oriented W s = W := by unfold oriented; rw [if_neg]; intro h'; have : s.dir = .forward := hdir; rw [this] at h'; cases h'
      rw [hor] at d1'
      have hSm : ∀ u, S u = mapOf A.t u := fun u => by rw [S_eq, hc]; rfl
      refine fin (mapOf A.dt) (fun c => by rw [hc, hSm]; rfl) (lin_mapOf _) (by rw [c1', c2']; exact d1') bA
    · have c1' : cl s.min s.max a = s.max := c1
      have c2' : cl s.min s.max b = s.min := c2
      have hor : oriented W s = W := by unfold oriented; rw [if_neg]; intro h'; have : s.dir = .forward := hdir; rw [this] at h'; cases h'
      rw [hor] at d3
      have hSm : ∀ u, S u = mapOf A.t.adj u := fun u => by rw [S_eq, hc]; rfl
      refine fin (mapOf A.dt.adj) (fun c => by rw [hc, hSm]; rfl) (lin_mapOf _) (by rw [c1', c2']; exact d3) bA'
    · have c1' : cl s.min s.max a = s.max := c1
      have c2' : cl s.min s.max b = s.min := c2
      have hor : oriented W s = fun x => W (s.min + s.max - x) := by unfold oriented; rw [if_pos]; exact hdir
      rw [hor] at d1'
      have d1'' := DNear.mirror d1'
      rw [hmax, hmin] at d1''
      have hSm : ∀ u, S u = flipY (mapOf A.t (flipY u)) := fun u => by rw [S_eq, hc]; rfl
      refine fin (fun u => flipY (mapOf A.dt (flipY u))) (fun c => ?_) (lin_flip (lin_mapOf _)) (by rw [c1', c2']; exact d1'') (fun u => ?_)
      · rw [hc, hSm, pe_reverse, ← flipY_add]; rfl
      · rw [sz_flipY]; have := bA (flipY u); rwa [sz_flipY] at this
    · have c1' : cl s.min s.max a = s.min := c1
      have c2' : cl s.min s.max b = s.max := c2
      have hor : oriented W s = fun x => W (s.min + s.max - x) := by unfold oriented; rw [if_pos]; exact hdir
      rw [hor] at d3
      have d3' := DNear.mirror d3
      rw [hmax, hmin] at d3'
      have hSm : ∀ u, S u = flipY (mapOf A.t.adj (flipY u)) := fun u => by rw [S_eq, hc]; rfl
      refine fin (fun u => flipY (mapOf A.dt.adj (flipY u))) (fun c => ?_) (lin_flip (lin_mapOf _)) (by rw [c1', c2']; exact d3') (fun u => ?_)
      · rw [hc, hSm, pe_reverse, ← flipY_add]; rfl
      · rw [sz_flipY]; have := bA' (flipY u); rwa [sz_flipY] at this

end Verif.Solver
