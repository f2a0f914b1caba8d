import Verif.Props.Index

/-!
# The matching error characterises the eigenvalues: C78

For problems whose potential is constant on each sector with exact steps: `matchingError(E)` is zero
exactly when `E` is an eigenvalue.
-/
namespace Verif.Prufer
open Verif.YT Verif.Propag Verif.Mesh Verif.Spec
open Real (pi sin cos)
open Set (Icc Ioo Ioc Ico Iic Ici)

/-- Solutions with given values at a point exist. -/
theorem exists_constSol (q x₀ u v : ℝ) : ∃ y dy, ConstSol q y dy ∧ y x₀ = u ∧ dy x₀ = v := by
  -- a fundamental system at 0
  have key : ∃ c dc s ds, ConstSol q c dc ∧ ConstSol q s ds ∧ c 0 = 1 ∧ dc 0 = 0 ∧ s 0 = 0 ∧ ds 0 = 1 := by
    rcases lt_trichotomy q 0 with h | h | h
    · obtain ⟨w, hw, rfl⟩ : ∃ w : ℝ, w ≠ 0 ∧ q = -(w * w) :=
        ⟨Real.sqrt (-q), (Real.sqrt_pos.mpr (by linarith)).ne', by rw [Real.mul_self_sqrt (by linarith)]; ring⟩
      refine ⟨fun x => cos (w * x), fun x => -(w * sin (w * x)), fun x => sin (w * x) / w, fun x => cos (w * x),
        ⟨fun x => ?_, fun x => ?_⟩, ⟨fun x => ?_, fun x => ?_⟩, by simp, by simp, by simp, by simp⟩
      · exact (((hasDerivAt_id x).const_mul w).cos).congr_deriv (by simp; ring)
      · exact ((((hasDerivAt_id x).const_mul w).sin).const_mul w).fun_neg.congr_deriv (by simp; ring)
      · exact ((((hasDerivAt_id x).const_mul w).sin).div_const w).congr_deriv (by simp; field_simp)
      · exact (((hasDerivAt_id x).const_mul w).cos).congr_deriv (by simp; field_simp)
    · subst h
      exact ⟨fun _ => 1, fun _ => 0, fun x => x, fun _ => 1,
        ⟨fun x => hasDerivAt_const _ _, fun x => (hasDerivAt_const _ _).congr_deriv (by ring)⟩,
        ⟨fun x => hasDerivAt_id x, fun x => (hasDerivAt_const _ _).congr_deriv (by ring)⟩, rfl, rfl, rfl, rfl⟩
    · obtain ⟨w, hw, rfl⟩ : ∃ w : ℝ, w ≠ 0 ∧ q = w * w :=
        ⟨Real.sqrt q, (Real.sqrt_pos.mpr h).ne', (Real.mul_self_sqrt h.le).symm⟩
      refine ⟨fun x => Real.cosh (w * x), fun x => w * Real.sinh (w * x), fun x => Real.sinh (w * x) / w,
        fun x => Real.cosh (w * x),
        ⟨fun x => ?_, fun x => ?_⟩, ⟨fun x => ?_, fun x => ?_⟩, by simp, by simp, by simp, by simp⟩
      · exact (((hasDerivAt_id x).const_mul w).cosh).congr_deriv (by simp; ring)
      · exact ((((hasDerivAt_id x).const_mul w).sinh).const_mul w).congr_deriv (by simp; ring)
      · exact ((((hasDerivAt_id x).const_mul w).sinh).div_const w).congr_deriv (by simp; field_simp)
      · exact (((hasDerivAt_id x).const_mul w).cosh).congr_deriv (by simp; field_simp)
  obtain ⟨c, dc, s, ds, hc, hs, c0, dc0, s0, ds0⟩ := key
  have h : ConstSol q (fun x => c x * u + s x * v) (fun x => dc x * u + ds x * v) :=
    ⟨fun t => ((hc.d1 t).mul_const _).add ((hs.d1 t).mul_const _),
      fun t => (((hc.d2 t).mul_const _).add ((hs.d2 t).mul_const _)).congr_deriv (by ring)⟩
  refine ⟨_, _, h.shift (-x₀), ?_, ?_⟩
  · simp [c0, s0]
  · simp [dc0, ds0]

/-- A continuously differentiable function on the line without double zeros. -/
structure Smooth (y dy : ℝ → ℝ) : Prop where
  d : ∀ x, HasDerivAt y (dy x) x
  cont : Continuous dy
  simple : ∀ x, ¬ (y x = 0 ∧ dy x = 0)

/-- `y` left of `m`, `Y` right of it. -/
noncomputable def glue (m : ℝ) (y Y : ℝ → ℝ) (x : ℝ) : ℝ := if x ≤ m then y x else Y x

theorem glue_left {m x : ℝ} {y Y : ℝ → ℝ} (h : x ≤ m) : glue m y Y x = y x := if_pos h
theorem glue_right {m x : ℝ} {y Y : ℝ → ℝ} (e : y m = Y m) (h : m ≤ x) : glue m y Y x = Y x := by
  unfold glue
  split
  · rename_i h'; rw [le_antisymm h' h, e]
  · rfl

theorem Smooth.glue {m : ℝ} {y dy Y dY : ℝ → ℝ} (h : Smooth y dy) (H : Smooth Y dY) (e : y m = Y m)
    (e' : dy m = dY m) : Smooth (glue m y Y) (glue m dy dY) where
  d x := by
    rcases lt_trichotomy x m with hx | hx | hx
    · have : Verif.Prufer.glue m y Y =ᶠ[nhds x] y := by
        filter_upwards [Iio_mem_nhds hx] with t ht
        exact glue_left (le_of_lt ht)
      rw [glue_left hx.le]
      exact (h.d x).congr_of_eventuallyEq this
    · subst hx
      rw [glue_left le_rfl]
      have h1 : HasDerivWithinAt (Verif.Prufer.glue x y Y) (dy x) (Iic x) x :=
        ((h.d x).hasDerivWithinAt).congr (fun t ht => glue_left ht) (glue_left le_rfl)
      have h2 : HasDerivWithinAt (Verif.Prufer.glue x y Y) (dy x) (Ici x) x := by
        rw [e']
        exact ((H.d x).hasDerivWithinAt).congr (fun t ht => glue_right e ht) (glue_right e le_rfl)
      have := h1.union h2
      rwa [Set.Iic_union_Ici, hasDerivWithinAt_univ] at this
    · have : Verif.Prufer.glue m y Y =ᶠ[nhds x] Y := by
        filter_upwards [Ioi_mem_nhds hx] with t ht
        exact glue_right e (le_of_lt ht)
      rw [glue_right e' hx.le]
      exact (H.d x).congr_of_eventuallyEq this
  cont := by
    refine Continuous.if_le h.cont H.cont continuous_id continuous_const ?_
    intro x hx
    rw [hx, e']
  simple x := by
    rcases le_total x m with hx | hx
    · rw [glue_left hx, glue_left hx]; exact h.simple x
    · rw [glue_right e hx, glue_right e' hx]; exact H.simple x

theorem ConstSol.smooth {q : ℝ} {y dy : ℝ → ℝ} (h : ConstSol q y dy) {x₀ : ℝ} (h0 : ¬ (y x₀ = 0 ∧ dy x₀ = 0)) :
    Smooth y dy := ⟨h.d1, h.cont_dy, h.nonzero h0⟩

/-- `y` solves the equation of the sector on the sector. -/
def SolvesOn (s : PSec ℝ) (v0M E eps : ℝ) (useH : Bool) (y dy : ℝ → ℝ) : Prop :=
  ∃ v0 Y dY, ExactSec s v0M v0 E eps useH ∧ ConstSol (v0 - E) Y dY ∧ ∀ x ∈ Icc s.min s.max, y x = Y x ∧ dy x = dY x

section
variable {P : Prob ℝ} {v0M E eps : ℝ} {useH : Bool}

theorem SolvesOn.congr {s : PSec ℝ} {y dy z dz : ℝ → ℝ} (h : SolvesOn s v0M E eps useH y dy)
    (e : ∀ x ∈ Icc s.min s.max, z x = y x ∧ dz x = dy x) : SolvesOn s v0M E eps useH z dz := by
  obtain ⟨v0, Y, dY, g, hs, ha⟩ := h
  exact ⟨v0, Y, dY, g, hs, fun x hx => by rw [(e x hx).1, (e x hx).2]; exact ha x hx⟩

/-- The piecewise solution with given values at the left end. -/
theorem exists_from_left (hm : IsMesh P.mesh P.dmin P.dmax)
    (hx : ∀ s ∈ P.secs, ∃ v0, ExactSec s v0M v0 E eps useH) {u v : ℝ} (h0 : ¬ (u = 0 ∧ v = 0)) :
    ∀ k (_ : k < P.secs.length), ∃ y dy, Smooth y dy ∧ y P.dmin = u ∧ dy P.dmin = v ∧
      ∀ j (hj : j < P.secs.length), j ≤ k → SolvesOn P.secs[j] v0M E eps useH y dy := by
  intro k
  induction k with
  | zero =>
    intro hk
    obtain ⟨v0, g⟩ := hx _ (List.getElem_mem hk)
    obtain ⟨y, dy, hs, e1, e2⟩ := exists_constSol (v0 - E) P.dmin u v
    refine ⟨y, dy, hs.smooth (x₀ := P.dmin) (by rw [e1, e2]; exact h0), e1, e2, fun j hj hj0 => ?_⟩
    have : j = 0 := by omega
    subst this
    exact ⟨v0, y, dy, g, hs, fun _ _ => ⟨rfl, rfl⟩⟩
  | succ k ih =>
    intro hk
    obtain ⟨y, dy, hsm, e1, e2, hso⟩ := ih (by omega)
    obtain ⟨v0, g⟩ := hx _ (List.getElem_mem hk)
    set m := (P.secs[k + 1]).min with hmdef
    have hj := mesh_joined hm hk
    obtain ⟨Y, dY, hs, f1, f2⟩ := exists_constSol (v0 - E) m (y m) (dy m)
    have hY : Smooth Y dY := hs.smooth (x₀ := m) (by rw [f1, f2]; exact hsm.simple m)
    have hle : P.dmin ≤ m := (sector_range hm hk).1
    refine ⟨glue m y Y, glue m dy dY, hsm.glue hY f1.symm f2.symm, by rw [glue_left hle, e1], by rw [glue_left hle, e2], ?_⟩
    intro j hjl hjk
    rcases Nat.eq_or_lt_of_le hjk with hjk | hjk
    · subst hjk
      refine ⟨v0, Y, dY, g, hs, fun x hx => ⟨glue_right f1.symm hx.1, glue_right f2.symm hx.1⟩⟩
    · refine (hso j hjl (by omega)).congr fun x hx => ?_
      have : x ≤ m := hx.2.trans (((mesh_mono hm (show j ≤ k by omega) (by omega)).2).trans hj.le)
      exact ⟨glue_left this, glue_left this⟩

/-- The piecewise solution with given values at the right end: `d` is the number of sectors from the right. -/
theorem exists_from_right (hm : IsMesh P.mesh P.dmin P.dmax)
    (hx : ∀ s ∈ P.secs, ∃ v0, ExactSec s v0M v0 E eps useH) {u v : ℝ} (h0 : ¬ (u = 0 ∧ v = 0)) :
    ∀ d (_ : d < P.secs.length), ∃ y dy, Smooth y dy ∧ y P.dmax = u ∧ dy P.dmax = v ∧
      ∀ j (hj : j < P.secs.length), P.secs.length - 1 - d ≤ j → SolvesOn P.secs[j] v0M E eps useH y dy := by
  intro d
  induction d with
  | zero =>
    intro hk
    obtain ⟨v0, g⟩ := hx _ (List.getElem_mem (show P.secs.length - 1 < P.secs.length by omega))
    obtain ⟨y, dy, hs, e1, e2⟩ := exists_constSol (v0 - E) P.dmax u v
    refine ⟨y, dy, hs.smooth (x₀ := P.dmax) (by rw [e1, e2]; exact h0), e1, e2, fun j hj hj0 => ?_⟩
    have : j = P.secs.length - 1 := by omega
    subst this
    exact ⟨v0, y, dy, g, hs, fun _ _ => ⟨rfl, rfl⟩⟩
  | succ d ih =>
    intro hk
    obtain ⟨y, dy, hsm, e1, e2, hso⟩ := ih (by omega)
    obtain ⟨k, hkd⟩ : ∃ k, k = P.secs.length - 1 - (d + 1) := ⟨_, rfl⟩
    have hk1 : k + 1 < P.secs.length := by omega
    obtain ⟨v0, g⟩ := hx _ (List.getElem_mem (show k < P.secs.length by omega))
    set m := (P.secs[k]).max with hmdef
    have hj := mesh_joined hm hk1
    obtain ⟨Y, dY, hs, f1, f2⟩ := exists_constSol (v0 - E) m (y m) (dy m)
    have hY : Smooth Y dY := hs.smooth (x₀ := m) (by rw [f1, f2]; exact hsm.simple m)
    have hle : m ≤ P.dmax := (sector_range hm (show k < P.secs.length by omega)).2.2
    refine ⟨glue m Y y, glue m dY dy, hY.glue hsm f1 f2, by rw [glue_right f1 hle, e1], by rw [glue_right f2 hle, e2], ?_⟩
    intro j hjl hjk
    rw [← hkd] at hjk
    rcases Nat.eq_or_lt_of_le hjk with hjk | hjk
    · subst hjk
      exact ⟨v0, Y, dY, g, hs, fun x hx => ⟨glue_left hx.2, glue_left hx.2⟩⟩
    · refine (hso j hjl (by omega)).congr fun x hx => ?_
      have : m ≤ x := hj.le.trans (((mesh_mono hm (show k + 1 ≤ j by omega) hjl).1).trans hx.1)
      exact ⟨glue_right f1 this, glue_right f2 this⟩

theorem Smooth.piecewise {y dy : ℝ → ℝ} (h : Smooth y dy)
    (hs : ∀ j (hj : j < P.secs.length), SolvesOn P.secs[j] v0M E eps useH y dy) : PiecewiseSolution P v0M E eps useH y dy where
  c1 := ⟨fun x _ => (h.d x).hasDerivWithinAt, h.cont.continuousOn, fun x _ => h.simple x⟩
  secs := by
    intro s hs'
    obtain ⟨j, hj, rfl⟩ := List.mem_iff_getElem.mp hs'
    exact hs j hj

/-- Existence of the solution of the initial value problem at the left end. -/
theorem exists_solution (hm : IsMesh P.mesh P.dmin P.dmax)
    (hx : ∀ s ∈ P.secs, ∃ v0, ExactSec s v0M v0 E eps useH) {u v : ℝ} (h0 : ¬ (u = 0 ∧ v = 0)) :
    ∃ y dy, PiecewiseSolution P v0M E eps useH y dy ∧ y P.dmin = u ∧ dy P.dmin = v := by
  have hl : 0 < P.secs.length := by rw [← mesh_length]; exact hm.length_pos
  obtain ⟨y, dy, h, e1, e2, hs⟩ := exists_from_left hm hx h0 (P.secs.length - 1) (by omega)
  exact ⟨y, dy, h.piecewise fun j hj => hs j hj (by omega), e1, e2⟩

/-- `E` is an eigenvalue: a non-trivial solution satisfies both boundary conditions. -/
def IsEigenvalue (P : Prob ℝ) (v0M E eps : ℝ) (useH : Bool) (left right : Y ℝ) : Prop :=
  ∃ y dy, PiecewiseSolution P v0M E eps useH y dy ∧
    (∃ kl, kl ≠ 0 ∧ left.y = kl * y P.dmin ∧ left.dy = kl * dy P.dmin) ∧
    (∃ kr, kr ≠ 0 ∧ right.y = kr * y P.dmax ∧ right.dy = kr * dy P.dmax)

/-- The value part of propagation in terms of a solution with the values of the column at `a`. -/
theorem propagate_values (hm : IsMesh P.mesh P.dmin P.dmax) (heps : 0 ≤ eps) {y dy : ℝ → ℝ}
    (hp : PiecewiseSolution P v0M E eps useH y dy) {a b : ℝ}
    (ha : a ∈ Icc P.dmin P.dmax) (hb : b ∈ Icc P.dmin P.dmax)
    (ca : ∀ s ∈ P.secs, Clear s eps a) (cb : ∀ s ∈ P.secs, Clear s eps b)
    (c : Y ℝ) (hc : c.y = y a ∧ c.dy = dy a) :
    ∃ r : Y ℝ × ℝ, P.propagate pi E c a b useH = .ok r ∧ r.1.y = y b ∧ r.1.dy = dy b := by
  obtain ⟨r, h1, h2, h3, -⟩ := C75_zero_count hm heps hp ha hb ca cb c hc
  exact ⟨r, h1, h2, h3⟩

/-- **C78**: on a problem with piecewise constant potential and exact steps, the matching error of `E` is
zero exactly when `E` is an eigenvalue: a non-trivial solution of the differential equation on the whole
domain satisfies both boundary conditions. -/
theorem C78_error_zero_iff_eigenvalue (hm : IsMesh P.mesh P.dmin P.dmax) (hmi : P.matchIndex < P.secs.length) (heps : 0 ≤ eps)
    (hx : ∀ s ∈ P.secs, ∃ v0, ExactSec s v0M v0 E eps useH) (left right : Y ℝ)
    (hl : ¬ (left.y = 0 ∧ left.dy = 0)) (hr : ¬ (right.y = 0 ∧ right.dy = 0)) :
    ∃ err derr θ, P.matchingError pi E left right useH = .ok (err, derr, θ) ∧
      (err = 0 ↔ IsEigenvalue P v0M E eps useH left right) := by
  obtain ⟨y, dy, hy, y1, y2, hys⟩ := exists_from_left hm hx hl (P.secs.length - 1) (by omega)
  obtain ⟨z, dz, hz, z1, z2, hzs⟩ := exists_from_right hm hx hr (P.secs.length - 1) (by omega)
  have py : PiecewiseSolution P v0M E eps useH y dy := hy.piecewise fun j hj => hys j hj (by omega)
  have pz : PiecewiseSolution P v0M E eps useH z dz := hz.piecewise fun j hj => hzs j hj (by omega)
  have hlt := dmin_lt_dmax hm py
  have hmA : P.dmin ∈ Icc P.dmin P.dmax := ⟨le_rfl, hlt.le⟩
  have hmB : P.dmax ∈ Icc P.dmin P.dmax := ⟨hlt.le, le_rfl⟩
  have hmr := sector_range hm hmi
  have hmM : (P.secs[P.matchIndex]).max ∈ Icc P.dmin P.dmax := ⟨hmr.1.trans hmr.2.1, hmr.2.2⟩
  obtain ⟨l, l1, l2, l3⟩ := propagate_values hm heps py hmA hmM (clear_dmin hm py) (clear_max hm py hmi) left ⟨y1.symm, y2.symm⟩
  obtain ⟨r, r1, r2, r3⟩ := propagate_values hm heps pz hmB hmM (clear_dmax hm pz) (clear_max hm pz hmi) right ⟨z1.symm, z2.symm⟩
  have hme : P.matchingError pi E left right useH = .ok (l.1.dy * r.1.y - r.1.dy * l.1.y,
      l.1.dyE * r.1.y + l.1.dy * r.1.yE - (r.1.dyE * l.1.y + r.1.dy * l.1.yE), l.2 - r.2) := by
    unfold Prob.matchingError
    rw [List.getElem?_eq_getElem hmi]
    simp only [l1, r1, Outcome.bind_ok, Outcome.pure_eq]
  refine ⟨_, _, _, hme, ?_⟩
  rw [l2, l3, r2, r3]
  set M := (P.secs[P.matchIndex]).max with hM
  constructor
  · intro h
    -- a factor between the two solutions at the match point
    obtain ⟨k, hk, k1, k2⟩ : ∃ k : ℝ, k ≠ 0 ∧ y M = k * z M ∧ dy M = k * dz M := by
      have ny := hy.simple M
      have nz := hz.simple M
      by_cases hz0 : z M = 0
      · have hdz : dz M ≠ 0 := fun h => nz ⟨hz0, h⟩
        have hy0 : y M = 0 := by
          rw [hz0, mul_zero, zero_sub, neg_eq_zero] at h
          exact (mul_eq_zero.mp h).resolve_left hdz
        refine ⟨dy M / dz M, div_ne_zero (fun h => ny ⟨hy0, h⟩) hdz, by rw [hz0, hy0, mul_zero], by field_simp⟩
      · have e2 : dy M = y M / z M * dz M := by field_simp; linarith
        refine ⟨y M / z M, ?_, by field_simp, e2⟩
        intro h0
        have : y M = 0 := by
          rcases div_eq_zero_iff.mp h0 with h1 | h1
          · exact h1
          · exact absurd h1 hz0
        exact ny ⟨this, by rw [e2, h0, zero_mul]⟩
    have hkz : Smooth (fun x => k * z x) (fun x => k * dz x) :=
      ⟨fun x => (hz.d x).const_mul k, continuous_const.mul hz.cont,
        fun x h => hz.simple x ⟨(mul_eq_zero.mp h.1).resolve_left hk, (mul_eq_zero.mp h.2).resolve_left hk⟩⟩
    refine ⟨glue M y (fun x => k * z x), glue M dy (fun x => k * dz x), (hy.glue hkz k1 k2).piecewise ?_,
      ⟨1, one_ne_zero, ?_, ?_⟩, ⟨k⁻¹, inv_ne_zero hk, ?_, ?_⟩⟩
    · intro j hj
      rcases Nat.lt_or_ge P.matchIndex j with hjm | hjm
      · obtain ⟨v0, Y, dY, g, hs, ha⟩ := hzs j hj (by omega)
        refine ⟨v0, fun x => k * Y x, fun x => k * dY x, g,
          ⟨fun x => (hs.d1 x).const_mul k, fun x => ((hs.d2 x).const_mul k).congr_deriv (by ring)⟩, fun x hx => ?_⟩
        have hMx : M ≤ x := by
          have h1 := hm.max_le_min hjm (by rw [mesh_length]; exact hj)
          rw [mesh_get P _ hmi, mesh_get P j hj] at h1
          have h1 : M ≤ (P.secs[j]).min := by simpa using h1
          exact h1.trans hx.1
        rw [glue_right k1 hMx, glue_right k2 hMx, (ha x hx).1, (ha x hx).2]
        exact ⟨rfl, rfl⟩
      · refine (hys j hj (by omega)).congr fun x hx => ?_
        have : x ≤ M := hx.2.trans (mesh_mono hm hjm hmi).2
        exact ⟨glue_left this, glue_left this⟩
    · rw [glue_left hmM.1, y1, one_mul]
    · rw [glue_left hmM.1, y2, one_mul]
    · rw [glue_right k1 hmM.2, z1]; field_simp
    · rw [glue_right k2 hmM.2, z2]; field_simp
  · rintro ⟨w, dw, hw, ⟨kl, hkl, a1, a2⟩, ⟨kr, hkr, b1, b2⟩⟩
    obtain ⟨-, derr, k, he, -, -⟩ := index_general hm hmi heps hw left right hkl ⟨a1, a2⟩ hkr ⟨b1, b2⟩
    rw [he] at hme
    have := congrArg (fun o => match o with | Outcome.ok (x : ℝ × ℝ × ℝ) => x.1 | _ => 0) hme
    simp only [l2, l3, r2, r3] at this
    exact this.symm

end

/-- Non-vacuity of C78: both sides hold for the boundary values of `sin` and fail for others. -/
example : IsEigenvalue oscProb 0 1 1e-12 true ⟨0, 1, 0, 0⟩ ⟨sin 4, cos 4, 0, 0⟩ ∧
    ¬ IsEigenvalue oscProb 0 1 1e-12 true ⟨0, 1, 0, 0⟩ ⟨cos 4, -sin 4, 0, 0⟩ := by
  refine ⟨⟨sin, cos, oscProb_sin, ⟨1, one_ne_zero, by simp [oscProb], by simp [oscProb]⟩,
    ⟨1, one_ne_zero, by simp [oscProb], by simp [oscProb]⟩⟩, ?_⟩
  intro h
  have hx : ∀ s ∈ oscProb.secs, ∃ v0, ExactSec s 0 v0 1 1e-12 true := fun s hs =>
    (oscProb_sin.secs s hs).imp fun v0 ⟨_, _, g, _⟩ => g
  have hcs := Real.sin_sq_add_cos_sq (4 : ℝ)
  obtain ⟨err, derr, θ, h1, h2⟩ := C78_error_zero_iff_eigenvalue (E := 1) (useH := true) (v0M := 0) oscProb_mesh (by simp [oscProb])
    (show (0 : ℝ) ≤ 1e-12 by norm_num) hx ⟨0, 1, 0, 0⟩ ⟨cos 4, -sin 4, 0, 0⟩ (by simp)
    (by rintro ⟨h1, h2⟩; simp only [neg_eq_zero] at h1 h2; rw [h1, h2] at hcs; norm_num at hcs)
  -- the mismatch is 1
  have hM : (2 : ℝ) ∈ Icc oscProb.dmin oscProb.dmax := by norm_num [oscProb]
  have pc : PiecewiseSolution oscProb 0 1 1e-12 true cos (fun x => -sin x) :=
    { c1 :=
        { deriv := fun x _ => (Real.hasDerivAt_cos x).hasDerivWithinAt
          cont := Real.continuous_sin.neg.continuousOn
          simple := fun x _ h => by
            have := Real.sin_sq_add_cos_sq x
            rw [h.1, neg_eq_zero.mp h.2] at this; norm_num at this }
      secs := fun s hs => by
        obtain ⟨v0, g⟩ := hx s hs
        simp only [oscProb, List.mem_cons, List.not_mem_nil, or_false] at hs
        refine ⟨0, cos, fun x => -sin x, ?_, cos_sol, fun _ _ => ⟨rfl, rfl⟩⟩
        rcases hs with rfl | rfl
        · exact oscSec_exact (by norm_num) (by norm_num) (.inl rfl)
        · exact oscSec_exact (by norm_num) (by norm_num) (.inr rfl) }
  obtain ⟨l, l1, l2, l3⟩ := propagate_values oscProb_mesh (by norm_num) oscProb_sin
    (a := 0) (b := 2) (by simp [oscProb]) hM (clear_dmin oscProb_mesh oscProb_sin)
    (clear_max oscProb_mesh oscProb_sin (i := 0) (by simp [oscProb])) ⟨0, 1, 0, 0⟩ (by simp)
  obtain ⟨r, r1, r2, r3⟩ := propagate_values oscProb_mesh (by norm_num) pc
    (a := 4) (b := 2) (by simp [oscProb]) hM (clear_dmax oscProb_mesh oscProb_sin)
    (clear_max oscProb_mesh oscProb_sin (i := 0) (by simp [oscProb])) ⟨cos 4, -sin 4, 0, 0⟩ ⟨rfl, rfl⟩
  have hme : oscProb.matchingError pi 1 ⟨0, 1, 0, 0⟩ ⟨cos 4, -sin 4, 0, 0⟩ true = .ok (l.1.dy * r.1.y - r.1.dy * l.1.y,
      l.1.dyE * r.1.y + l.1.dy * r.1.yE - (r.1.dyE * l.1.y + r.1.dy * l.1.yE), l.2 - r.2) := by
    have e : oscProb.secs[oscProb.matchIndex]? = some (oscSec 0 2 .forward) := rfl
    unfold Prob.matchingError
    rw [e]
    have h1 : oscProb.propagate pi 1 ⟨0, 1, 0, 0⟩ oscProb.dmin (oscSec 0 2 .forward).max true = .ok l := l1
    have h2 : oscProb.propagate pi 1 ⟨cos 4, -sin 4, 0, 0⟩ oscProb.dmax (oscSec 0 2 .forward).max true = .ok r := r1
    simp only [h1, h2, Outcome.bind_ok, Outcome.pure_eq]
  rw [h1] at hme
  have := congrArg (fun o => match o with | Outcome.ok (x : ℝ × ℝ × ℝ) => x.1 | _ => 0) hme
  simp only [l2, l3, r2, r3, h2.mpr h] at this
  have h22 := Real.sin_sq_add_cos_sq (2 : ℝ)
  nlinarith

end Verif.Prufer
