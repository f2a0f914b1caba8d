import Verif.Lemmas.Flow
import Verif.Spec.Problem
import Mathlib.MeasureTheory.Integral.IntervalIntegral.FundThmCalculus
import Mathlib.Analysis.SpecialFunctions.Integrals.Basic

/-!
# The Schrödinger equation with a piecewise continuous potential on a mesh
Existence, growth, Wronskian, dependence on the energy, Green's identity.
-/
namespace Verif
open Verif.Mesh Verif.Spec

/-- The sectors, in order, join up from `a` to `b`. -/
def Chn : ℝ → List (Sec ℝ) → ℝ → Prop
  | a, [], b => a = b
  | a, s :: l, b => s.min = a ∧ Chn s.max l b

theorem chn_of_tiling : ∀ (l : List (Sec ℝ)) {a b : ℝ}, IsTiling SamePoint (bounds l) a b → Chn a l b
  | [], _, _, h => absurd rfl h.nonempty
  | [s], _, _, h => ⟨h.first _ rfl, h.last _ rfl⟩
  | s :: t :: l, a, b, h => by
    refine ⟨h.first _ rfl, chn_of_tiling (t :: l) ⟨by simp [bounds], ?_, ?_, ?_⟩⟩
    · intro p hp
      have := h.joined 0 (by simp [bounds])
      simp only [bounds, List.map_cons, List.getElem_cons_zero, List.getElem_cons_succ, zero_add] at this
      simp only [bounds, List.map_cons, List.head?_cons, Option.some.injEq] at hp
      rw [← hp]
      rcases this with h | h
      · exact h.symm
      · simp only [ccmp_eq, decide_eq_true_eq] at h
        exact h.symm
    · intro p hp
      refine h.last p ?_
      simp only [bounds, List.map_cons] at hp ⊢
      rw [List.getLast?_cons_cons]; exact hp
    · intro i hi
      have := h.joined (i + 1) (by simp only [bounds, List.map_cons, List.length_cons] at hi ⊢; omega)
      simpa [bounds] using this

/-- Sector by sector bounds on the potential. -/
structure OkMesh (K : ℝ) (W : Sec ℝ → ℝ → ℝ) (E a : ℝ) (l : List (Sec ℝ)) (b : ℝ) : Prop where
  chn : Chn a l b
  pos : ∀ s ∈ l, s.min < s.max
  cont : ∀ s ∈ l, ContinuousOn (W s) (Set.Icc s.min s.max)
  le : ∀ s ∈ l, ∀ x ∈ Set.Icc s.min s.max, |W s x - E| ≤ K

theorem OkMesh.tail {K : ℝ} {W : Sec ℝ → ℝ → ℝ} {E a b : ℝ} {s : Sec ℝ} {l : List (Sec ℝ)} (h : OkMesh K W E a (s :: l) b) : OkMesh K W E s.max l b :=
  ⟨h.chn.2, fun t ht => h.pos t (List.mem_cons_of_mem _ ht), fun t ht => h.cont t (List.mem_cons_of_mem _ ht), fun t ht => h.le t (List.mem_cons_of_mem _ ht)⟩

theorem chn_range : ∀ {l : List (Sec ℝ)} {a b : ℝ}, Chn a l b → (∀ s ∈ l, s.min < s.max) → a ≤ b ∧ ∀ s ∈ l, a ≤ s.min ∧ s.max ≤ b
  | [], a, b, h, _ => by simp only [Chn] at h; exact ⟨h.le, by simp⟩
  | s :: l, a, b, h, hp => by
    obtain ⟨h1, h2⟩ := chn_range h.2 (fun t ht => hp t (List.mem_cons_of_mem _ ht))
    have h0 := hp s (by simp)
    have e := h.1
    refine ⟨by linarith, ?_⟩
    intro t ht
    rcases List.mem_cons.mp ht with rfl | ht
    · exact ⟨e.ge, h1⟩
    · have := h2 t ht
      exact ⟨by linarith, this.2⟩

theorem SolvesMesh.tail {W : Sec ℝ → ℝ → ℝ} {E : ℝ} {s : Sec ℝ} {l : List (Sec ℝ)} {y dy : ℝ → ℝ} (h : SolvesMesh W E (s :: l) y dy) : SolvesMesh W E l y dy :=
  fun t ht => h t (List.mem_cons_of_mem _ ht)

theorem SolvesMesh.comb {W : Sec ℝ → ℝ → ℝ} {E : ℝ} {l : List (Sec ℝ)} {y dy z dz : ℝ → ℝ} (hy : SolvesMesh W E l y dy) (hz : SolvesMesh W E l z dz) (α β : ℝ) :
    SolvesMesh W E l (fun x => α * y x + β * z x) (fun x => α * dy x + β * dz x) :=
  fun s hs => (hy s hs).comb (hz s hs) α β

theorem SolvesOn.congr {V : ℝ → ℝ} {E a b : ℝ} {y dy z dz : ℝ → ℝ} (h : SolvesOn V E a b y dy) (h1 : ∀ x ∈ Set.Icc a b, z x = y x)
    (h2 : ∀ x ∈ Set.Icc a b, dz x = dy x) : SolvesOn V E a b z dz := by
  constructor
  · intro x hx
    rw [h2 x hx]
    exact (h.d1 x hx).congr h1 (h1 x hx)
  · intro x hx
    rw [h1 x hx]
    exact (h.d2 x hx).congr h2 (h2 x hx)

/-- Existence on the mesh. -/
theorem mesh_exists {K : ℝ} {W : Sec ℝ → ℝ → ℝ} {E : ℝ} : ∀ {l : List (Sec ℝ)} {a b : ℝ}, OkMesh K W E a l b → ∀ u : ℝ × ℝ,
    ∃ y dy, SolvesMesh W E l y dy ∧ y a = u.1 ∧ dy a = u.2
  | [], a, b, _, u => ⟨fun _ => u.1, fun _ => u.2, by intro s hs; simp at hs, rfl, rfl⟩
  | s :: l, a, b, h, u => by
    have e := h.chn.1
    have hp := h.pos s (by simp)
    obtain ⟨y1, dy1, h1, i1, i2⟩ := exists_solution (E := E) hp.le (h.cont s (by simp)) u.1 u.2
    obtain ⟨y2, dy2, h2, j1, j2⟩ := mesh_exists h.tail (y1 s.max, dy1 s.max)
    refine ⟨fun x => if x ≤ s.max then y1 x else y2 x, fun x => if x ≤ s.max then dy1 x else dy2 x, ?_, ?_, ?_⟩
    · intro t ht
      rcases List.mem_cons.mp ht with rfl | ht
      · exact h1.congr (fun x hx => if_pos hx.2) (fun x hx => if_pos hx.2)
      · have r := (chn_range h.tail.chn h.tail.pos).2 t ht
        refine (h2 t ht).congr (fun x hx => ?_) (fun x hx => ?_)
        · have : s.max ≤ x := r.1.trans hx.1
          rcases this.eq_or_lt with q | q
          · subst q; simp [j1]
          · exact if_neg (not_le.mpr q)
        · have : s.max ≤ x := r.1.trans hx.1
          rcases this.eq_or_lt with q | q
          · subst q; simp [j2]
          · exact if_neg (not_le.mpr q)
    · rw [← e]; simp [hp.le, i1]
    · rw [← e]; simp [hp.le, i2]

/-- Growth, in both directions. -/
theorem mesh_growth {K : ℝ} (hK : 1 ≤ K) {W : Sec ℝ → ℝ → ℝ} {E : ℝ} {y dy : ℝ → ℝ} : ∀ {l : List (Sec ℝ)} {a b : ℝ}, OkMesh K W E a l b →
    SolvesMesh W E l y dy → ∀ x ∈ Set.Icc a b, sz (y x, dy x) ≤ Real.exp (K * (x - a)) * sz (y a, dy a) ∧
      sz (y a, dy a) ≤ Real.exp (K * (x - a)) * sz (y x, dy x)
  | [], a, b, h, _, x, hx => by
    have := h.chn
    simp only [Chn] at this
    have : x = a := by linarith [hx.1, hx.2]
    subst this; simp
  | s :: l, a, b, h, hs, x, hx => by
    have e := h.chn.1
    subst e
    have hp := h.pos s (by simp)
    have key : ∀ z ∈ Set.Icc s.min s.max, sz (y z, dy z) ≤ Real.exp (K * (z - s.min)) * sz (y s.min, dy s.min) ∧
        sz (y s.min, dy s.min) ≤ Real.exp (K * (z - s.min)) * sz (y z, dy z) := by
      intro z hz
      have k1 := flow_bound hK (h.le s (by simp)) (hs s (by simp)) (x := s.min) (x' := z) ⟨le_rfl, hp.le⟩ hz
      have k2 := flow_bound hK (h.le s (by simp)) (hs s (by simp)) (x := z) (x' := s.min) hz ⟨le_rfl, hp.le⟩
      rw [abs_of_nonneg (by linarith [hz.1])] at k1
      rw [abs_sub_comm, abs_of_nonneg (by linarith [hz.1])] at k2
      exact ⟨k1, k2⟩
    rcases le_total x s.max with q | q
    · exact key x ⟨hx.1, q⟩
    · obtain ⟨m1, m2⟩ := key s.max ⟨hp.le, le_rfl⟩
      obtain ⟨t1, t2⟩ := mesh_growth hK h.tail hs.tail x ⟨q, hx.2⟩
      have ee : Real.exp (K * (x - s.min)) = Real.exp (K * (x - s.max)) * Real.exp (K * (s.max - s.min)) := by
        rw [← Real.exp_add]; congr 1; ring
      rw [ee]
      constructor
      · refine t1.trans ?_
        rw [mul_assoc]
        exact mul_le_mul_of_nonneg_left m1 (Real.exp_pos _).le
      · refine m2.trans ?_
        rw [mul_comm (Real.exp (K * (x - s.max))), mul_assoc]
        exact mul_le_mul_of_nonneg_left t2 (Real.exp_pos _).le

/-- A solution in the sense of right derivatives: `y' = dy`, `dy' = q y`. -/
structure SolvesR (q : ℝ → ℝ) (a b : ℝ) (y dy : ℝ → ℝ) : Prop where
  c1 : ContinuousOn y (Set.Icc a b)
  c2 : ContinuousOn dy (Set.Icc a b)
  d1 : ∀ x ∈ Set.Ico a b, HasDerivWithinAt y (dy x) (Set.Ici x) x
  d2 : ∀ x ∈ Set.Ico a b, HasDerivWithinAt dy (q x * y x) (Set.Ici x) x

/-- The potential of a mesh, continuous from the right. -/
noncomputable def glue (W : Sec ℝ → ℝ → ℝ) : List (Sec ℝ) → ℝ → ℝ
  | [], _ => 0
  | s :: l, x => if x < s.max then W s x else glue W l x

theorem glue_bound {K : ℝ} {W : Sec ℝ → ℝ → ℝ} {E : ℝ} : ∀ {l : List (Sec ℝ)} {a b : ℝ}, OkMesh K W E a l b → ∀ x ∈ Set.Ico a b, |glue W l x - E| ≤ K
  | [], a, b, h, x, hx => by
    have := h.chn
    simp only [Chn] at this
    exact absurd (hx.1.trans_lt hx.2) (by rw [this]; exact lt_irrefl _)
  | s :: l, a, b, h, x, hx => by
    have e := h.chn.1
    subst e
    unfold glue
    split
    · rename_i q
      exact h.le s (by simp) x ⟨hx.1, q.le⟩
    · rename_i q
      exact glue_bound h.tail x ⟨not_lt.mp q, hx.2⟩

theorem SolvesMesh.right {K : ℝ} {W : Sec ℝ → ℝ → ℝ} {E : ℝ} {y dy : ℝ → ℝ} : ∀ {l : List (Sec ℝ)} {a b : ℝ}, OkMesh K W E a l b →
    SolvesMesh W E l y dy → SolvesR (fun x => glue W l x - E) a b y dy
  | [], a, b, h, _ => by
    have := h.chn
    simp only [Chn] at this
    subst this
    refine ⟨by simp, by simp, ?_, ?_⟩ <;> · intro x hx; simp at hx
  | s :: l, a, b, h, hs => by
    have e := h.chn.1
    subst e
    have hp := h.pos s (by simp)
    have s1 := hs s (by simp)
    have s2 := SolvesMesh.right h.tail hs.tail
    have hb := (chn_range h.tail.chn h.tail.pos).1
    have eu : Set.Icc s.min b = Set.Icc s.min s.max ∪ Set.Icc s.max b := (Set.Icc_union_Icc_eq_Icc hp.le hb).symm
    have nh : ∀ x ∈ Set.Ico s.min s.max, Set.Icc s.min s.max ∈ nhdsWithin x (Set.Ici x) := fun x hx =>
      Filter.mem_of_superset (Icc_mem_nhdsGE hx.2) (Set.Icc_subset_Icc_left hx.1)
    refine ⟨?_, ?_, ?_, ?_⟩
    · rw [eu]
      exact ContinuousOn.union_of_isClosed (fun x hx => (s1.d1 x hx).continuousWithinAt) s2.c1 isClosed_Icc isClosed_Icc
    · rw [eu]
      exact ContinuousOn.union_of_isClosed (fun x hx => (s1.d2 x hx).continuousWithinAt) s2.c2 isClosed_Icc isClosed_Icc
    · intro x hx
      rcases lt_or_ge x s.max with q | q
      · exact (s1.d1 x ⟨hx.1, q.le⟩).mono_of_mem_nhdsWithin (nh x ⟨hx.1, q⟩)
      · exact s2.d1 x ⟨q, hx.2⟩
    · intro x hx
      rcases lt_or_ge x s.max with q | q
      · have : glue W (s :: l) x = W s x := if_pos q
        simp only [this]
        exact (s1.d2 x ⟨hx.1, q.le⟩).mono_of_mem_nhdsWithin (nh x ⟨hx.1, q⟩)
      · have : glue W (s :: l) x = glue W l x := if_neg (not_lt.mpr q)
        simp only [this]
        exact s2.d2 x ⟨q, hx.2⟩

/-- Green's identity for two energies. -/
theorem green {w : ℝ → ℝ} {E F a b : ℝ} {y dy z dz : ℝ → ℝ} (hy : SolvesR (fun x => w x - E) a b y dy) (hz : SolvesR (fun x => w x - F) a b z dz)
    {x : ℝ} (hx : x ∈ Set.Icc a b) : (dy x * z x - y x * dz x) - (dy a * z a - y a * dz a) = (F - E) * ∫ t in a..x, y t * z t := by
  have sub : Set.Icc a x ⊆ Set.Icc a b := Set.Icc_subset_Icc_right hx.2
  have c1 := hy.c1.mono sub
  have c2 := hy.c2.mono sub
  have c3 := hz.c1.mono sub
  have c4 := hz.c2.mono sub
  have key := intervalIntegral.integral_eq_sub_of_hasDeriv_right_of_le (f := fun t => dy t * z t - y t * dz t) (f' := fun t => (F - E) * (y t * z t)) hx.1
    ((c2.mul c3).sub (c1.mul c4))
    (fun t ht => by
      have ht' : t ∈ Set.Ico a b := ⟨ht.1.le, ht.2.trans_le hx.2⟩
      have h := ((hy.d2 t ht').mul (hz.d1 t ht')).sub ((hy.d1 t ht').mul (hz.d2 t ht'))
      exact (h.congr_deriv (by ring)).mono Set.Ioi_subset_Ici_self)
    ((ContinuousOn.intervalIntegrable (by rw [Set.uIcc_of_le hx.1]; exact (c1.mul c3).const_mul (F - E) )))
  rw [← key, intervalIntegral.integral_const_mul]

/-- The Wronskian is constant. -/
theorem wronskR {w : ℝ → ℝ} {E a b : ℝ} {y dy z dz : ℝ → ℝ} (hy : SolvesR (fun x => w x - E) a b y dy) (hz : SolvesR (fun x => w x - E) a b z dz)
    {x : ℝ} (hx : x ∈ Set.Icc a b) : dy x * z x - y x * dz x = dy a * z a - y a * dz a := by
  have := green hy hz hx
  rw [sub_self, zero_mul] at this
  linarith

/-- A solution through given values at any point of the mesh. -/
theorem mesh_exists_at {K : ℝ} {W : Sec ℝ → ℝ → ℝ} {E : ℝ} {l : List (Sec ℝ)} {a b : ℝ} (h : OkMesh K W E a l b) {x : ℝ} (hx : x ∈ Set.Icc a b) (u : ℝ × ℝ) :
    ∃ y dy, SolvesMesh W E l y dy ∧ y x = u.1 ∧ dy x = u.2 := by
  obtain ⟨φ, dφ, hφ, e1, e2⟩ := mesh_exists h (1, 0)
  obtain ⟨ψ, dψ, hψ, e3, e4⟩ := mesh_exists h (0, 1)
  have w := wronskR (hψ.right h) (hφ.right h) hx
  rw [e1, e2, e3, e4] at w
  refine ⟨_, _, hφ.comb hψ (dψ x * u.1 - ψ x * u.2) (φ x * u.2 - dφ x * u.1), ?_, ?_⟩
  · linear_combination u.1 * w
  · linear_combination u.2 * w

/-- A solution vanishing with its derivative at one point is zero. -/
theorem mesh_zero {K : ℝ} (hK : 1 ≤ K) {W : Sec ℝ → ℝ → ℝ} {E : ℝ} {l : List (Sec ℝ)} {a b : ℝ} (h : OkMesh K W E a l b) {y dy : ℝ → ℝ}
    (hy : SolvesMesh W E l y dy) {x0 : ℝ} (h0 : x0 ∈ Set.Icc a b) (e : sz (y x0, dy x0) = 0) {x : ℝ} (hx : x ∈ Set.Icc a b) : y x = 0 ∧ dy x = 0 := by
  have g0 := (mesh_growth hK h hy x0 h0).2
  have g := (mesh_growth hK h hy x hx).1
  rw [e, mul_zero] at g0
  have ea : sz (y a, dy a) = 0 := le_antisymm g0 (sz_nonneg _)
  rw [ea, mul_zero] at g
  have a1 := le_sz1 (y x, dy x)
  have a2 := le_sz2 (y x, dy x)
  exact ⟨abs_nonpos_iff.mp (a1.trans g), abs_nonpos_iff.mp (a2.trans g)⟩

/-- Dependence on the energy. -/
theorem energy_dep {w : ℝ → ℝ} {E F a b K B : ℝ} {y dy z dz : ℝ → ℝ} (hK : 1 ≤ K) (hB : 0 ≤ B) (hq : ∀ x ∈ Set.Ico a b, |w x - E| ≤ K)
    (hy : SolvesR (fun x => w x - E) a b y dy) (hz : SolvesR (fun x => w x - F) a b z dz) (i1 : z a = y a) (i2 : dz a = dy a)
    (hb : ∀ x ∈ Set.Ico a b, |z x| ≤ B) {x : ℝ} (hx : x ∈ Set.Icc a b) :
    sz ((z x, dz x) - (y x, dy x)) ≤ |F - E| * B * (x - a) * Real.exp (K * (x - a)) := by
  have hK0 : (0 : ℝ) ≤ K := by linarith
  have key := dist_le_of_approx_trajectories_ODE_of_mem (E := ℝ × ℝ) (a := a) (b := b) (K := ⟨K, hK0⟩)
    (v := fun t p => (p.2, (w t - E) * p.1)) (s := fun _ => Set.univ) (εf := |F - E| * B) (εg := 0) (δ := 0)
    (f := fun t => (z t, dz t)) (g := fun t => (y t, dy t)) (f' := fun t => (dz t, (w t - F) * z t))
    (g' := fun t => (dy t, (w t - E) * y t))
    (by
      intro t ht
      apply LipschitzWith.lipschitzOnWith
      refine LipschitzWith.of_dist_le_mul (fun p p' => ?_)
      have hqt := hq t ht
      rw [Prod.dist_eq, Prod.dist_eq]
      simp only [Real.dist_eq, NNReal.coe_mk]
      have m0 : 0 ≤ max |p.1 - p'.1| |p.2 - p'.2| := le_max_of_le_left (abs_nonneg _)
      change _ ≤ K * _
      refine max_le ?_ ?_
      · calc |p.2 - p'.2| ≤ max |p.1 - p'.1| |p.2 - p'.2| := le_max_right _ _
          _ ≤ K * max |p.1 - p'.1| |p.2 - p'.2| := by nlinarith
      · rw [← mul_sub, abs_mul]
        exact mul_le_mul hqt (le_max_left _ _) (abs_nonneg _) hK0)
    (hz.c1.prodMk hz.c2)
    (fun t ht => (hz.d1 t ht).prodMk (hz.d2 t ht))
    (fun t ht => by
      rw [Prod.dist_eq]
      simp only [Real.dist_eq]
      refine max_le ?_ ?_
      · rw [sub_self, abs_zero]; positivity
      · rw [show (w t - F) * z t - (w t - E) * z t = -((F - E) * z t) by ring, abs_neg, abs_mul]
        exact mul_le_mul_of_nonneg_left (hb t ht) (abs_nonneg _))
    (fun _ _ => trivial)
    (hy.c1.prodMk hy.c2)
    (fun t ht => (hy.d1 t ht).prodMk (hy.d2 t ht))
    (fun t ht => by simp) (fun _ _ => trivial) (by simp [i1, i2]) x hx
  rw [Prod.dist_eq] at key
  simp only [Real.dist_eq, NNReal.coe_mk, add_zero] at key
  exact key.trans (gronwallBound_le (K := K) (ε := |F - E| * B) (x := x - a) (by linarith) (by positivity) (by linarith [hx.1]))

end Verif
