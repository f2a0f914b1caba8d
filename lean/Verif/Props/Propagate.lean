import Verif.Lemmas.Propagate
import Mathlib.Analysis.Calculus.Deriv.Add
import Mathlib.Analysis.Calculus.Deriv.Mul
import Mathlib.Analysis.Calculus.Deriv.Pow

/-!
# C10–C17: `Matslise::propagate` and `Matslise::matchingError`
-/
set_option linter.unusedSectionVars false
namespace Verif.Propag
open Verif.Mesh Verif.YT Verif.Spec

/-! ## A concrete problem used for the non-vacuity examples -/

/-- transfer matrix with non-trivial value and derivative part and determinant 1 -/
def exT {K : Type} [Field K] (E δ : K) : T K :=
  ⟨⟨1 + E * δ * δ, δ, E * δ, 1⟩, ⟨δ * δ, 0, δ, 0⟩⟩

/-- two sectors, one forward and one backward -/
def exProb (K : Type) [Field K] : Prob K where
  secs := [⟨⟨0, 1, .forward⟩, 1, fun E δ _ => exT E δ, fun _ _ => 0, fun _ _ _ _ => 0⟩,
    ⟨⟨1, 2, .backward⟩, 1, fun E δ _ => exT E δ, fun _ _ => 0, fun _ _ _ _ => 0⟩]
  dmin := 0
  dmax := 2
  matchIndex := 0

theorem exT_uni {K : Type} [Field K] (E δ : K) : (exT E δ).Unimodular := by
  constructor <;> simp only [exT, M2.det] <;> ring

theorem exProb_mesh {K : Type} [Field K] [LinearOrder K] [IsStrictOrderedRing K] :
    IsMesh (exProb K).mesh (exProb K).dmin (exProb K).dmax where
  tiling :=
    { nonempty := by simp [exProb, Prob.mesh, bounds]
      first := by simp [exProb, Prob.mesh, bounds]
      last := by simp [exProb, Prob.mesh, bounds]
      joined := by
        intro i hi
        have : i = 0 := by simp [exProb, Prob.mesh, bounds] at hi; omega
        subst this
        left; simp [exProb, Prob.mesh, bounds] }
  ordered := by
    intro s hs
    simp only [exProb, Prob.mesh, List.map_cons, List.map_nil, List.mem_cons, List.not_mem_nil,
      or_false] at hs
    rcases hs with rfl | rfl <;> simp

theorem exProb_good {K : Type} [Field K] [LinearOrder K] [IsStrictOrderedRing K] (E : K)
    (useH : Bool) : (exProb K).Good E useH where
  mesh := exProb_mesh
  secs := by
    intro s hs
    simp only [exProb, List.mem_cons, List.not_mem_nil, or_false] at hs
    rcases hs with rfl | rfl
    · exact ⟨by simp, by simp, Or.inl rfl, fun δ _ _ => exT_uni E δ⟩
    · exact ⟨by norm_num, by norm_num, Or.inr rfl, fun δ _ _ => exT_uni E δ⟩

/-! ## C10 -/

/-- **C10.** `propagate` throws exactly when `a` or `b` is not in the domain (also for NaN and in
floating-point arithmetic: only the IEEE comparison laws are used); otherwise it returns a value and
never touches memory outside the sector array. -/
theorem C10_propagate_domain {K : Type} [Add K] [Sub K] [Mul K] [Neg K] [Zero K] [One K] [CCmp K]
    [IeeeOrd K] (P : Prob K) (hm : IsMesh P.mesh P.dmin P.dmax) (pi E : K) (y : Y K) (a b : K)
    (useH : Bool) :
    ((P.propagate pi E y a b useH).isThrow = true ↔
      ¬ (CCmp.le P.dmin a = true ∧ CCmp.le a P.dmax = true ∧
         CCmp.le P.dmin b = true ∧ CCmp.le b P.dmax = true)) ∧
    ((P.propagate pi E y a b useH).isThrow = false → ∃ r, P.propagate pi E y a b useH = .ok r) := by
  by_cases ha : domainContains P.dmin P.dmax a = true
  · by_cases hb : domainContains P.dmin P.dmax b = true
    · obtain ⟨i, j, -, -, -, -, -, -, he⟩ := propagate_closed P hm pi a b useH ha hb
      simp only [domainContains, Bool.and_eq_true] at ha hb
      rw [he E y]
      exact ⟨by simp [Outcome.isThrow, ha, hb], fun _ => ⟨_, rfl⟩⟩
    · have : P.propagate pi E y a b useH =
          .throws "Matslise::propagate(): a and b should be in the interval" := by
        simp [Prob.propagate, ha, hb]
      rw [this]
      simp only [domainContains, Bool.and_eq_true] at hb
      exact ⟨⟨fun _ h => hb ⟨h.2.2.1, h.2.2.2⟩, fun _ => rfl⟩, fun h => by simp [Outcome.isThrow] at h⟩
  · have : P.propagate pi E y a b useH =
        .throws "Matslise::propagate(): a and b should be in the interval" := by
      simp [Prob.propagate, ha]
    rw [this]
    simp only [domainContains, Bool.and_eq_true] at ha
    exact ⟨⟨fun _ h => ha ⟨h.1, h.2.1⟩, fun _ => rfl⟩, fun h => by simp [Outcome.isThrow] at h⟩

/-- Non-vacuity: both outcomes occur. -/
example : ((exProb ℚ).propagate 3 5 Y.dirichlet (1/2) (3/2)).isOk = true ∧
    ((exProb ℚ).propagate 3 5 Y.dirichlet (1/2) (5/2)).isThrow = true := by decide +kernel

section exact
variable {K : Type} [Field K] [LinearOrder K] [IsStrictOrderedRing K]

/-! ## C11 -/

/-- **C11.** Propagation is linear in the initial values, E-derivatives included. No condition on the
transfer matrices. -/
theorem C11_propagate_linear (P : Prob K) (hm : IsMesh P.mesh P.dmin P.dmax)
    (hh : ∀ s ∈ P.secs, 0 ≤ s.h) (pi E : K) (useH : Bool) (u v : Y K) (α β : K) {a b : K}
    (ha : P.dmin ≤ a ∧ a ≤ P.dmax) (hb : P.dmin ≤ b ∧ b ≤ P.dmax) :
    ∃ ru rv rw, P.propagate pi E u a b useH = .ok ru ∧ P.propagate pi E v a b useH = .ok rv ∧
      P.propagate pi E ((u.smul α).add (v.smul β)) a b useH = .ok rw ∧
      rw.1 = (ru.1.smul α).add (rv.1.smul β) := by
  obtain ⟨r, hr, hR⟩ := propagate_rel hm pi useH ha hb (fun _ : Fin 3 => E)
    ![u, v, (u.smul α).add (v.smul β)]
    (fun g => g 2 = ((g 0).smul α).add ((g 1).smul β)) rfl
    (by intro g hg; simp only [] at *; rw [hg, reverse_add', (C35_smul_comm T.one _ _).2.2,
          (C35_smul_comm T.one _ _).2.2])
    hh
    (by intro s _ δ _ _ g hg; simp only [] at *; rw [hg, mul_add', (C35_smul_comm _ _ _).1,
          (C35_smul_comm _ _ _).1])
    (by intro s _ δ _ _ g hg; simp only [] at *; rw [hg, YT.div_add', (C35_smul_comm _ _ _).2.1,
          (C35_smul_comm _ _ _).2.1])
  exact ⟨r 0, r 1, r 2, hr 0, hr 1, hr 2, hR⟩

/-- Non-vacuity: the hypotheses hold for the concrete problem and the result is not the zero map. -/
example : (∀ s ∈ (exProb ℚ).secs, 0 ≤ s.h) ∧
    (exProb ℚ).propagate 3 5 Y.dirichlet (1/2) (3/2) ≠ .ok (⟨0, 0, 0, 0⟩, 0) := by
  decide +kernel

/-! ## C12, C13 -/

/-- **C12.** Propagating from `a` to `b` and on to `c` gives the same values (E-derivatives
included) as propagating from `a` to `c`, wherever the three points lie. -/
theorem C12_propagate_composes {P : Prob K} {E : K} {useH : Bool} (g : P.Good E useH) (pi : K)
    (y : Y K) {a b c : K} (ha : P.dmin ≤ a ∧ a ≤ P.dmax) (hb : P.dmin ≤ b ∧ b ≤ P.dmax)
    (hc : P.dmin ≤ c ∧ c ≤ P.dmax) :
    ∃ r₁ r₂ r, P.propagate pi E y a b useH = .ok r₁ ∧ P.propagate pi E r₁.1 b c useH = .ok r₂ ∧
      P.propagate pi E y a c useH = .ok r ∧ r₂.1 = r.1 := by
  obtain ⟨θ₁, h₁⟩ := propagate_eq_Phi g pi y ha hb
  obtain ⟨θ, h⟩ := propagate_eq_Phi g pi y ha hc
  obtain ⟨θ₂, h₂⟩ := propagate_eq_Phi g pi ((P.Phi E useH b * (P.Phi E useH a)⁻¹) y) hb hc
  refine ⟨_, _, _, h₁, h₂, h, ?_⟩
  simp only [← Equiv.Perm.mul_apply]
  congr 1; group

/-- Propagating from a point to itself changes nothing. -/
theorem C13_propagate_refl {P : Prob K} {E : K} {useH : Bool} (g : P.Good E useH) (pi : K)
    (y : Y K) {a : K} (ha : P.dmin ≤ a ∧ a ≤ P.dmax) :
    ∃ θ, P.propagate pi E y a a useH = .ok (y, θ) := by
  obtain ⟨θ₁, h₁⟩ := propagate_eq_Phi g pi y ha ha
  refine ⟨θ₁, ?_⟩
  rw [h₁]; simp

/-- **C13.** Propagating from `a` to `b` and back returns the initial values, E-derivatives
included. -/
theorem C13_propagate_reversible {P : Prob K} {E : K} {useH : Bool} (g : P.Good E useH) (pi : K)
    (y : Y K) {a b : K} (ha : P.dmin ≤ a ∧ a ≤ P.dmax) (hb : P.dmin ≤ b ∧ b ≤ P.dmax) :
    ∃ r θ, P.propagate pi E y a b useH = .ok r ∧ P.propagate pi E r.1 b a useH = .ok (y, θ) := by
  obtain ⟨r₁, r₂, r, h₁, h₂, h, he⟩ := C12_propagate_composes g pi y ha hb ha
  obtain ⟨θ, h'⟩ := C13_propagate_refl g pi y ha
  rw [h] at h'
  refine ⟨r₁, r₂.2, h₁, ?_⟩
  rw [h₂]
  have : r.1 = y := by injection h' with h'; rw [h']
  rw [← this, ← he]

/-- Non-vacuity for C12, C13: the concrete problem is good, and the values really change. -/
example : (exProb ℚ).Good 5 true ∧
    (exProb ℚ).propagate 3 5 ⟨1, 2, 3, 4⟩ (3/2) (1/3) ≠ .ok (⟨1, 2, 3, 4⟩, 0) ∧
    ((exProb ℚ).propagate 3 5 ⟨1, 2, 3, 4⟩ (3/2) (1/3) >>=
      fun r => (exProb ℚ).propagate 3 5 r.1 (1/3) (3/2)).map Prod.fst = .ok ⟨1, 2, 3, 4⟩ :=
  ⟨exProb_good _ _, by decide +kernel, by decide +kernel⟩

/-! ## C14 -/

/-- **C14.** The Wronskian `u v' - u' v` of two solutions is the same at `a` and at `b`. Only
`det t = 1` is used. -/
theorem C14_wronskian_conserved (P : Prob K) (hm : IsMesh P.mesh P.dmin P.dmax)
    (hh : ∀ s ∈ P.secs, 0 ≤ s.h) (pi E : K) (useH : Bool)
    (hdet : ∀ s ∈ P.secs, ∀ δ, 0 ≤ δ → δ ≤ s.h →
      (s.tr E δ useH).t.a * (s.tr E δ useH).t.d - (s.tr E δ useH).t.b * (s.tr E δ useH).t.c = 1)
    (u v : Y K) {a b : K} (ha : P.dmin ≤ a ∧ a ≤ P.dmax) (hb : P.dmin ≤ b ∧ b ≤ P.dmax) :
    ∃ ru rv, P.propagate pi E u a b useH = .ok ru ∧ P.propagate pi E v a b useH = .ok rv ∧
      ru.1.y * rv.1.dy - ru.1.dy * rv.1.y = u.y * v.dy - u.dy * v.y := by
  have hdet' : ∀ s ∈ P.secs, ∀ δ, 0 ≤ δ → δ ≤ s.h → (s.tr E δ useH).t.det = 1 := hdet
  -- reversal flips the sign, so sectors are treated as a whole
  have ha' : domainContains P.dmin P.dmax a = true := by simpa [domainContains] using ha
  have hb' : domainContains P.dmin P.dmax b = true := by simpa [domainContains] using hb
  obtain ⟨i, j, -, -, -, -, -, -, he⟩ := propagate_closed P hm pi a b useH ha' hb'
  refine ⟨_, _, he E u, he E v, ?_⟩
  simp only [fold_fst]
  have key := fold_rel P useH a b (fun _ : Fin 2 => E) ![u, v] (visited i j)
    (fun g => (g 0).y * (g 1).dy - (g 0).dy * (g 1).y = u.y * v.dy - u.dy * v.y) rfl ?_
  · exact key
  · intro s hs g hg
    have hw : ∀ (z w : Y K × K) (δ : K),
        wronskian (s.propagateDelta E useH z δ).1 (s.propagateDelta E useH w δ).1 =
          wronskian z.1 w.1 := by
      intro z w δ
      unfold PSec.propagateDelta
      simp only [ccmp_le, ccmp_lt, decide_eq_true_eq]
      generalize (if s.dir = .backward then -δ else δ) = ε
      have hr : ∀ ε : K, 0 ≤ ε →
          (s.tr E (if s.h < ε then s.h else ε) useH).t.det = 1 := by
        intro ε he
        split
        · exact hdet' s hs _ (hh s hs) le_rfl
        · exact hdet' s hs _ he (not_lt.mp (by assumption))
      by_cases hbk : s.dir = .backward <;> by_cases hε : 0 ≤ ε <;>
        simp only [hbk, hε, if_true, if_false, wronskian_reverse, wronskian_mul, wronskian_div]
      · rw [hr _ hε]; ring
      · rw [hr _ (by linarith)]; ring
      · rw [hr _ hε]; ring
      · rw [hr _ (by linarith)]; ring
    have hpair : ∀ (c1 c2 : Bool) (d1 d2 : K) (z w : Y K × K),
        wronskian
          (if c2 = true then s.propagateDelta E useH
              (if c1 = true then s.propagateDelta E useH z d1 else z) d2
            else (if c1 = true then s.propagateDelta E useH z d1 else z)).1
          (if c2 = true then s.propagateDelta E useH
              (if c1 = true then s.propagateDelta E useH w d1 else w) d2
            else (if c1 = true then s.propagateDelta E useH w d1 else w)).1 = wronskian z.1 w.1 := by
      intro c1 c2 d1 d2 z w
      cases c1 <;> cases c2 <;> simp only [Bool.false_eq_true, if_false, if_true, hw]
    have : wronskian (s.propagate E useH (g 0) a b).1 (s.propagate E useH (g 1) a b).1 =
        wronskian (g 0) (g 1) := by
      unfold PSec.propagate
      split
      · split <;> exact hpair _ _ _ _ _ _
      · rfl
    exact this.trans hg

/-- Non-vacuity: the determinant hypothesis holds for the concrete problem at every energy. -/
example (E : ℚ) : ∀ s ∈ (exProb ℚ).secs, ∀ δ, 0 ≤ δ → δ ≤ s.h →
    (s.tr E δ true).t.a * (s.tr E δ true).t.d - (s.tr E δ true).t.b * (s.tr E δ true).t.c = 1 :=
  fun s hs δ h1 h2 => (((exProb_good E true).secs s hs).uni δ h1 h2).det

/-! ## C16 -/

/-- "`u` and `v` are the same solution up to the factor `c`" at one point. -/
def Proportional (c : K) (u v : Y K) : Prop := u.y = c * v.y ∧ u.dy = c * v.dy

theorem Prob.Good.h_nonneg {P : Prob K} {E : K} {useH : Bool} (g : P.Good E useH) :
    ∀ s ∈ P.secs, 0 ≤ s.h := fun s hs => by
  rw [(g.secs s hs).h_eq]; linarith [(g.secs s hs).lt]

/-- proportional values stay proportional -/
theorem propagate_proportional {P : Prob K} {E : K} {useH : Bool} (g : P.Good E useH) (pi c : K)
    (u v : Y K) (h : Proportional c u v) {a b : K} (ha : P.dmin ≤ a ∧ a ≤ P.dmax)
    (hb : P.dmin ≤ b ∧ b ≤ P.dmax) :
    ∃ ru rv, P.propagate pi E u a b useH = .ok ru ∧ P.propagate pi E v a b useH = .ok rv ∧
      Proportional c ru.1 rv.1 := by
  obtain ⟨r, hr, hR⟩ := propagate_rel g.mesh pi useH ha hb (fun _ : Fin 2 => E) ![u, v]
    (fun q => Proportional c (q 0) (q 1)) h
    (by rintro q ⟨h1, h2⟩; exact ⟨h1, by simp only [Y.reverse]; rw [h2]; ring⟩)
    g.h_nonneg
    (by rintro s _ δ _ _ q ⟨h1, h2⟩
        constructor <;> simp only [T.mul, M2.mulVec] <;> rw [h1, h2] <;> ring)
    (by rintro s _ δ _ _ q ⟨h1, h2⟩
        constructor <;> simp only [T.div, M2.mulVec, M2.adj] <;> rw [h1, h2] <;> ring)
  exact ⟨r 0, r 1, hr 0, hr 1, hR⟩

theorem proportional_of_wronskian_zero {u v : Y K} (hu : ¬ (u.y = 0 ∧ u.dy = 0))
    (hv : ¬ (v.y = 0 ∧ v.dy = 0)) (h : u.dy * v.y - v.dy * u.y = 0) :
    ∃ c, c ≠ 0 ∧ Proportional c u v := by
  by_cases hvy : v.y = 0
  · have hvd : v.dy ≠ 0 := fun h' => hv ⟨hvy, h'⟩
    have huy : u.y = 0 := by
      rw [hvy] at h
      have : v.dy * u.y = 0 := by linear_combination -h
      exact (mul_eq_zero.mp this).resolve_left hvd
    have hud : u.dy ≠ 0 := fun h' => hu ⟨huy, h'⟩
    exact ⟨u.dy / v.dy, div_ne_zero hud hvd, by rw [huy, hvy]; ring, by field_simp⟩
  · refine ⟨u.y / v.y, ?_, by field_simp, ?_⟩
    · intro hz
      have huy : u.y = 0 := by
        rcases div_eq_zero_iff.mp hz with h' | h'
        · exact h'
        · exact absurd h' hvy
      rw [huy] at h
      have : u.dy * v.y = 0 := by linear_combination h
      exact hu ⟨huy, (mul_eq_zero.mp this).resolve_right hvy⟩
    · field_simp; linear_combination h

theorem max_in_domain {P : Prob K} (hm : IsMesh P.mesh P.dmin P.dmax) {i : Nat}
    (hi : i < P.secs.length) : P.dmin ≤ (P.secs[i]).max ∧ (P.secs[i]).max ≤ P.dmax := by
  have hi' : i < P.mesh.length := by rw [mesh_length]; exact hi
  have ho := hm.ordered ((P.secs[i]).toSec) (by rw [← mesh_get P _ hi]; exact List.getElem_mem _)
  have := hm.sector_in_domain (x := (P.secs[i]).max) hi'
    (by rw [mesh_get P i hi]; simpa [Sec.contains] using ho)
  simpa [domainContains] using this

theorem matchIndex_point {P : Prob K} {E : K} {useH : Bool} (g : P.Good E useH)
    (hmi : P.matchIndex < P.secs.length) :
    P.dmin ≤ (P.secs[P.matchIndex]).max ∧ (P.secs[P.matchIndex]).max ≤ P.dmax := by
  exact max_in_domain g.mesh hmi

/-- What `matchingError` computes on a good problem. -/
theorem matchingError_eq {P : Prob K} {E : K} {useH : Bool} (g : P.Good E useH) (pi : K)
    (hmi : P.matchIndex < P.secs.length) (l r : Y K) :
    ∃ ul vr θ, P.propagate pi E l P.dmin (P.secs[P.matchIndex]).max useH = .ok ul ∧
      P.propagate pi E r P.dmax (P.secs[P.matchIndex]).max useH = .ok vr ∧
      P.matchingError pi E l r useH = .ok (ul.1.dy * vr.1.y - vr.1.dy * ul.1.y,
        ul.1.dyE * vr.1.y + ul.1.dy * vr.1.yE - (vr.1.dyE * ul.1.y + vr.1.dy * ul.1.yE), θ) := by
  have hm := matchIndex_point g hmi
  have hd : P.dmin ≤ P.dmax := hm.1.trans hm.2
  obtain ⟨θ₁, h₁⟩ := propagate_eq_Phi g pi l ⟨le_rfl, hd⟩ hm
  obtain ⟨θ₂, h₂⟩ := propagate_eq_Phi g pi r ⟨hd, le_rfl⟩ hm
  refine ⟨_, _, θ₁ - θ₂, h₁, h₂, ?_⟩
  unfold Prob.matchingError
  simp only [List.getElem?_eq_getElem hmi, h₁, h₂, Outcome.bind_ok, Outcome.pure_eq]

/-- **C16.** The first component of `matchingError(E, left, right)` is zero exactly when one function
satisfies both boundary conditions: the solution started from `left` at the left end and the one
started from `right` at the right end are non-zero multiples of each other on the whole domain. -/
theorem C16_zero_matching_error {P : Prob K} {E : K} {useH : Bool} (g : P.Good E useH) (pi : K)
    (hmi : P.matchIndex < P.secs.length) (l r : Y K) (hl : ¬ (l.y = 0 ∧ l.dy = 0))
    (hr : ¬ (r.y = 0 ∧ r.dy = 0)) :
    ∃ err, P.matchingError pi E l r useH = .ok err ∧
      (err.1 = 0 ↔ ∃ c, c ≠ 0 ∧ ∀ x, P.dmin ≤ x → x ≤ P.dmax →
        ∃ u v, P.propagate pi E l P.dmin x useH = .ok u ∧
          P.propagate pi E r P.dmax x useH = .ok v ∧ u.1.y = c * v.1.y ∧ u.1.dy = c * v.1.dy) := by
  have hm := matchIndex_point g hmi
  have hd : P.dmin ≤ P.dmax := hm.1.trans hm.2
  obtain ⟨ul, vr, θ, h₁, h₂, h₃⟩ := matchingError_eq g pi hmi l r
  refine ⟨_, h₃, ?_⟩
  simp only []
  -- the propagated values are not both zero
  have hne : ∀ (z : Y K) (x₀ : K) (w : Y K × K), P.dmin ≤ x₀ ∧ x₀ ≤ P.dmax →
      ¬ (z.y = 0 ∧ z.dy = 0) →
      P.propagate pi E z x₀ (P.secs[P.matchIndex]).max useH = .ok w →
      ¬ (w.1.y = 0 ∧ w.1.dy = 0) := by
    intro z x₀ w hx hz hw ⟨h1, h2⟩
    obtain ⟨r', θ', e1, e2⟩ := C13_propagate_reversible g pi z hx hm
    have : r' = w := by rw [hw] at e1; injection e1 with e1; exact e1.symm
    subst this
    obtain ⟨ru, rv, e3, e4, e5⟩ := propagate_proportional g pi 0 r'.1 r'.1
      ⟨by rw [h1]; ring, by rw [h2]; ring⟩ hm hx
    rw [e2] at e3
    injection e3 with e3
    rw [← e3] at e5
    exact hz ⟨by simpa using e5.1, by simpa using e5.2⟩
  constructor
  · intro h0
    obtain ⟨c, hc, hp⟩ := proportional_of_wronskian_zero
      (hne l P.dmin ul ⟨le_rfl, hd⟩ hl h₁) (hne r P.dmax vr ⟨hd, le_rfl⟩ hr h₂) h0
    refine ⟨c, hc, ?_⟩
    intro x hx1 hx2
    obtain ⟨r₁, r₂, u, e1, e2, e3, e4⟩ :=
      C12_propagate_composes g pi l ⟨le_rfl, hd⟩ hm ⟨hx1, hx2⟩
    obtain ⟨s₁, s₂, v, f1, f2, f3, f4⟩ :=
      C12_propagate_composes g pi r ⟨hd, le_rfl⟩ hm ⟨hx1, hx2⟩
    have : r₁ = ul := by rw [h₁] at e1; injection e1 with e1; exact e1.symm
    subst this
    have : s₁ = vr := by rw [h₂] at f1; injection f1 with f1; exact f1.symm
    subst this
    obtain ⟨ru, rv, q1, q2, q3⟩ := propagate_proportional g pi c _ _ hp hm ⟨hx1, hx2⟩
    refine ⟨u, v, e3, f3, ?_⟩
    rw [e2] at q1; rw [f2] at q2
    injection q1 with q1; injection q2 with q2
    rw [← q1, ← q2, e4, f4] at q3
    exact q3
  · rintro ⟨c, hc, h⟩
    obtain ⟨u, v, e1, e2, e3, e4⟩ := h _ hm.1 hm.2
    rw [h₁] at e1; rw [h₂] at e2
    injection e1 with e1; injection e2 with e2
    rw [← e1, ← e2] at e3 e4
    rw [e3, e4]; ring

/-- **C16.** The first component of `matchingError` does not depend on the position of the matching
point in the mesh. -/
theorem C16_match_point_independent {P : Prob K} {E : K} {useH : Bool} (g : P.Good E useH) (pi : K)
    (l r : Y K) (i j : Nat) (hi : i < P.secs.length) (hj : j < P.secs.length) :
    ∃ e₁ e₂, ({P with matchIndex := i} : Prob K).matchingError pi E l r useH = .ok e₁ ∧
      ({P with matchIndex := j} : Prob K).matchingError pi E l r useH = .ok e₂ ∧ e₁.1 = e₂.1 := by
  have hprop : ∀ (i : Nat) (y : Y K) (a b : K),
      ({P with matchIndex := i} : Prob K).propagate pi E y a b useH =
        P.propagate pi E y a b useH := by
    intro i y a b
    have hw : ∀ fuel (k : Int) st, ({P with matchIndex := i} : Prob K).walk E useH a b fuel k st =
        P.walk E useH a b fuel k st := by
      intro fuel
      induction fuel with
      | zero => intro k st; unfold Prob.walk; rfl
      | succ fuel ih => intro k st; unfold Prob.walk; simp only [ih]
    unfold Prob.propagate
    simp only [hw]
    rfl
  have gi : ({P with matchIndex := i} : Prob K).Good E useH := ⟨g.mesh, g.secs⟩
  have gj : ({P with matchIndex := j} : Prob K).Good E useH := ⟨g.mesh, g.secs⟩
  have hmi := matchIndex_point gi hi
  have hmj := matchIndex_point gj hj
  simp only at hmi hmj
  have hd : P.dmin ≤ P.dmax := hmi.1.trans hmi.2
  obtain ⟨u₁, v₁, θ₁, a1, a2, a3⟩ := matchingError_eq gi pi hi l r
  obtain ⟨u₂, v₂, θ₂, b1, b2, b3⟩ := matchingError_eq gj pi hj l r
  simp only [hprop] at a1 a2 b1 b2
  refine ⟨_, _, a3, b3, ?_⟩
  simp only []
  obtain ⟨r₁, r₂, u, e1, e2, e3, e4⟩ := C12_propagate_composes g pi l ⟨le_rfl, hd⟩ hmi hmj
  obtain ⟨s₁, s₂, v, f1, f2, f3, f4⟩ := C12_propagate_composes g pi r ⟨hd, le_rfl⟩ hmi hmj
  rw [a1] at e1; rw [a2] at f1; rw [b1] at e3; rw [b2] at f3
  injection e1 with e1; injection f1 with f1; injection e3 with e3; injection f3 with f3
  subst e1 f1 e3 f3
  obtain ⟨ru, rv, q1, q2, q3⟩ := C14_wronskian_conserved P g.mesh g.h_nonneg pi E useH
    (fun s hs δ h1 h2 => ((g.secs s hs).uni δ h1 h2).det) u₁.1 v₁.1 hmi hmj
  rw [e2] at q1; rw [f2] at q2
  injection q1 with q1; injection q2 with q2
  rw [← q1, ← q2, e4, f4] at q3
  linear_combination q3

/-- Non-vacuity: the hypotheses hold; the error is zero for one right boundary condition and
non-zero for another. -/
example : (exProb ℚ).Good 1 true ∧
    ((exProb ℚ).matchingError 3 1 Y.dirichlet ⟨3, 1, 0, 0⟩ true).map Prod.fst ≠ .ok 0 ∧
    ((exProb ℚ).matchingError 3 1 Y.dirichlet ⟨2, 3, 0, 0⟩ true).map Prod.fst = .ok 0 :=
  ⟨exProb_good _ _, by decide +kernel, by decide +kernel⟩

end exact

/-! ## C15, C17 -/

/-- `f` is a family of columns whose `∂/∂E` components at `E` are the derivatives at `E` of its value
components. -/
def EDeriv (f : ℝ → Y ℝ) (E : ℝ) : Prop :=
  HasDerivAt (fun e => (f e).y) (f E).yE E ∧ HasDerivAt (fun e => (f e).dy) (f E).dyE E

/-- `A` is a family of transfer matrices whose stored `dt` at `E` is the derivative of `t` at `E`. -/
def TDeriv (A : ℝ → T ℝ) (E : ℝ) : Prop :=
  HasDerivAt (fun e => (A e).t.a) (A E).dt.a E ∧ HasDerivAt (fun e => (A e).t.b) (A E).dt.b E ∧
  HasDerivAt (fun e => (A e).t.c) (A E).dt.c E ∧ HasDerivAt (fun e => (A e).t.d) (A E).dt.d E

theorem EDeriv.mul {A : ℝ → T ℝ} {f : ℝ → Y ℝ} {E : ℝ} (hA : TDeriv A E) (hf : EDeriv f E) :
    EDeriv (fun e => (A e).mul (f e)) E := by
  obtain ⟨ha, hb, hc, hd⟩ := hA
  obtain ⟨h1, h2⟩ := hf
  constructor
  · refine ((ha.mul h1).add (hb.mul h2)).congr_deriv ?_
    simp only [T.mul, M2.mulVec]; ring
  · refine ((hc.mul h1).add (hd.mul h2)).congr_deriv ?_
    simp only [T.mul, M2.mulVec]; ring

theorem EDeriv.div {A : ℝ → T ℝ} {f : ℝ → Y ℝ} {E : ℝ} (hA : TDeriv A E) (hf : EDeriv f E) :
    EDeriv (fun e => (A e).div (f e)) E := by
  obtain ⟨ha, hb, hc, hd⟩ := hA
  obtain ⟨h1, h2⟩ := hf
  constructor
  · refine ((hd.mul h1).add (hb.neg.mul h2)).congr_deriv ?_
    simp only [T.div, M2.mulVec, M2.adj, Pi.neg_apply]; ring
  · refine ((hc.neg.mul h1).add (ha.mul h2)).congr_deriv ?_
    simp only [T.div, M2.mulVec, M2.adj, Pi.neg_apply]; ring

theorem EDeriv.reverse {f : ℝ → Y ℝ} {E : ℝ} (hf : EDeriv f E) :
    EDeriv (fun e => (f e).reverse) E := ⟨hf.1, hf.2.neg⟩

/-- A matrix family of constant determinant 1 has the derivative condition of `T.Unimodular`: with
`TDeriv`, `det t = 1` for all `E` is enough for C12 and C13. -/
theorem ddet_of_det_one {A : ℝ → T ℝ} {E : ℝ} (hA : TDeriv A E)
    (hdet : ∀ e, (A e).t.det = 1) : (A E).Unimodular := by
  obtain ⟨ha, hb, hc, hd⟩ := hA
  refine ⟨hdet E, ?_⟩
  have h1 := ((ha.mul hd).sub (hb.mul hc))
  have h2 : (fun e => (A e).t.a * (A e).t.d - (A e).t.b * (A e).t.c) = fun _ => (1 : ℝ) := by
    funext e; exact hdet e
  have h3 : HasDerivAt (fun e => (A e).t.a * (A e).t.d - (A e).t.b * (A e).t.c) 0 E := by
    rw [h2]; exact hasDerivAt_const _ _
  have := h1.unique h3
  linear_combination this

/-- **C15.** If the initial `∂y/∂E` are derivatives and the stored `dt` are the derivatives of `t`, the
`∂y/∂E` returned by `propagate` are the derivatives with respect to `E` of the returned values. No
condition on determinants. -/
theorem C15_E_derivative (P : Prob ℝ) (hm : IsMesh P.mesh P.dmin P.dmax)
    (hh : ∀ s ∈ P.secs, 0 ≤ s.h) (pi E : ℝ) (useH : Bool)
    (hT : ∀ s ∈ P.secs, ∀ δ, 0 ≤ δ → δ ≤ s.h → TDeriv (fun e => s.tr e δ useH) E)
    (f : ℝ → Y ℝ) (hf : EDeriv f E) {a b : ℝ}
    (ha : P.dmin ≤ a ∧ a ≤ P.dmax) (hb : P.dmin ≤ b ∧ b ≤ P.dmax) :
    ∃ r : ℝ → Y ℝ × ℝ, (∀ e, P.propagate pi e (f e) a b useH = .ok (r e)) ∧
      HasDerivAt (fun e => (r e).1.y) (r E).1.yE E ∧
      HasDerivAt (fun e => (r e).1.dy) (r E).1.dyE E :=
  propagate_rel hm pi useH ha hb (fun e => e) f (fun g => EDeriv g E) hf
    (fun _ hg => hg.reverse) hh
    (fun s hs δ h1 h2 _ hg => EDeriv.mul (hT s hs δ h1 h2) hg)
    (fun s hs δ h1 h2 _ hg => EDeriv.div (hT s hs δ h1 h2) hg)

/-- **C17.** The second component of `matchingError` is the derivative with respect to `E` of the
first. -/
theorem C17_matching_error_derivative (P : Prob ℝ) (hm : IsMesh P.mesh P.dmin P.dmax)
    (hh : ∀ s ∈ P.secs, 0 ≤ s.h) (hmi : P.matchIndex < P.secs.length) (pi E : ℝ) (useH : Bool)
    (hT : ∀ s ∈ P.secs, ∀ δ, 0 ≤ δ → δ ≤ s.h → TDeriv (fun e => s.tr e δ useH) E)
    (l r : ℝ → Y ℝ) (hl : EDeriv l E) (hr : EDeriv r E) :
    ∃ err : ℝ → ℝ × ℝ × ℝ, (∀ e, P.matchingError pi e (l e) (r e) useH = .ok (err e)) ∧
      HasDerivAt (fun e => (err e).1) (err E).2.1 E := by
  have hmm : P.dmin ≤ (P.secs[P.matchIndex]).max ∧ (P.secs[P.matchIndex]).max ≤ P.dmax :=
    max_in_domain hm hmi
  have hd : P.dmin ≤ P.dmax := hmm.1.trans hmm.2
  obtain ⟨u, hu, hu1, hu2⟩ := C15_E_derivative P hm hh pi E useH hT l hl ⟨le_rfl, hd⟩ hmm
  obtain ⟨v, hv, hv1, hv2⟩ := C15_E_derivative P hm hh pi E useH hT r hr ⟨hd, le_rfl⟩ hmm
  refine ⟨fun e => ((u e).1.dy * (v e).1.y - (v e).1.dy * (u e).1.y,
    (u e).1.dyE * (v e).1.y + (u e).1.dy * (v e).1.yE -
      ((v e).1.dyE * (u e).1.y + (v e).1.dy * (u e).1.yE), (u e).2 - (v e).2), ?_, ?_⟩
  · intro e
    unfold Prob.matchingError
    simp only [List.getElem?_eq_getElem hmi, hu e, hv e, Outcome.bind_ok, Outcome.pure_eq]
  · exact (hu2.mul hv1).sub (hv2.mul hu1)

/-- Non-vacuity for C15, C17: the concrete problem's `dt` is the derivative of its `t`, and the usual
boundary values are constant families with zero derivative. -/
example (E : ℝ) : (∀ s ∈ (exProb ℝ).secs, ∀ δ, 0 ≤ δ → δ ≤ s.h → TDeriv (fun e => s.tr e δ true) E) ∧
    EDeriv (fun _ => Y.dirichlet) E := by
  have key : ∀ δ : ℝ, TDeriv (fun e => exT e δ) E := by
    intro δ
    have h := (hasDerivAt_id E).mul_const δ
    simp only [id] at h
    refine ⟨?_, ?_, ?_, ?_⟩
    · exact (((h.mul_const δ).const_add 1)).congr_deriv (by simp [exT])
    · exact hasDerivAt_const _ _
    · exact h.congr_deriv (by simp [exT])
    · exact hasDerivAt_const _ _
  refine ⟨?_, hasDerivAt_const _ _, hasDerivAt_const _ _⟩
  intro s hs δ _ _
  simp only [exProb, List.mem_cons, List.not_mem_nil, or_false] at hs
  rcases hs with rfl | rfl <;> exact key δ

end Verif.Propag
