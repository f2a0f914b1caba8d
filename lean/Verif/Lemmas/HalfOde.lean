import Verif.Lemmas.UniformMesh
import Verif.Lemmas.MeshOde
import Verif.Spec.HalfRange

/-!
# Even and odd solutions of a symmetric problem
-/
namespace Verif.Solver
open Verif.Mesh

/-- A solution that vanishes with its derivative at one point vanishes. -/
theorem on_zero {V : ℝ → ℝ} {E a b : ℝ} {y dy : ℝ → ℝ} (hV : ContinuousOn V (Set.Icc a b)) (h : SolvesOn V E a b y dy) {x0 : ℝ} (h0 : x0 ∈ Set.Icc a b) (e1 : y x0 = 0)
    (e2 : dy x0 = 0) {x : ℝ} (hx : x ∈ Set.Icc a b) : y x = 0 ∧ dy x = 0 := by
  obtain ⟨K, hK⟩ := isCompact_Icc.exists_bound_of_continuousOn (f := fun x => V x - E) (hV.sub continuousOn_const)
  have b := flow_bound (K := max 1 K) (le_max_left _ _) (fun t ht => le_max_of_le_right (hK t ht)) h h0 hx
  have z : sz (y x0, dy x0) = 0 := by rw [e1, e2]; simp [sz]
  rw [z, mul_zero] at b
  exact ⟨abs_nonpos_iff.mp ((le_sz1 (y x, dy x)).trans b), abs_nonpos_iff.mp ((le_sz2 (y x, dy x)).trans b)⟩

/-- The mirror image of a solution. -/
theorem SolvesOn.mirror {V : ℝ → ℝ} {E a b : ℝ} {y dy : ℝ → ℝ} (hV : ∀ x ∈ Set.Icc a b, V (-x) = V x) (h : SolvesOn V E a b y dy) :
    SolvesOn V E (-b) (-a) (fun x => y (-x)) (fun x => -dy (-x)) := by
  have hm : Set.MapsTo (fun x : ℝ => -x) (Set.Icc (-b) (-a)) (Set.Icc a b) := fun x hx => ⟨by linarith [hx.2], by linarith [hx.1]⟩
  have hd : ∀ x, HasDerivWithinAt (fun x : ℝ => -x) (-1) (Set.Icc (-b) (-a)) x := fun x => (hasDerivAt_neg x).hasDerivWithinAt
  constructor
  · intro x hx
    exact ((h.d1 _ (hm hx)).scomp x (hd x) hm).congr_deriv (by simp)
  · intro x hx
    refine ((h.d2 _ (hm hx)).scomp x (hd x) hm).neg.congr_deriv ?_
    have := hV _ (hm hx)
    rw [neg_neg] at this
    simp [this]

/-- An even or odd extension of a solution on `[0, a]`. -/
theorem SolvesOn.extend {V : ℝ → ℝ} {E a c : ℝ} {y dy : ℝ → ℝ} (ha : 0 ≤ a) (hV : ∀ x ∈ Set.Icc 0 a, V (-x) = V x) (h : SolvesOn V E 0 a y dy) (h1 : c * y 0 = y 0) (h2 : -(c * dy 0) = dy 0) :
    SolvesOn V E (-a) a (fun x => if 0 ≤ x then y x else c * y (-x)) (fun x => if 0 ≤ x then dy x else -(c * dy (-x))) := by
  refine SolvesOn.join (c := 0) ?_ ?_ (by linarith) ha
  · have hm := (SolvesOn.mirror hV h).comb (SolvesOn.mirror hV h) c 0
    rw [neg_zero] at hm
    refine SolvesOn.congr hm ?_ ?_
    · intro x hx
      rcases eq_or_lt_of_le hx.2 with e | e
      · subst e; simp [h1]
      · simp [not_le.mpr e]
    · intro x hx
      rcases eq_or_lt_of_le hx.2 with e | e
      · subst e; simp only [le_refl, if_true, neg_zero, zero_mul, add_zero]; linarith
      · simp [not_le.mpr e]
  · exact SolvesOn.congr h (fun x hx => by simp [hx.1]) (fun x hx => by simp [hx.1])

/-- The zeros of an even or odd function. -/
theorem zeros_sym {Y : ℝ → ℝ} {a c : ℝ} (ha : 0 < a) (hY : ∀ x ∈ Set.Icc (-a) a, Y (-x) = c * Y x) :
    (({x ∈ Set.Ioo (-a) a | Y x = 0} : Set ℝ).Finite ↔ ({x ∈ Set.Ioo 0 a | Y x = 0} : Set ℝ).Finite) ∧
    (({x ∈ Set.Ioo 0 a | Y x = 0} : Set ℝ).Finite → ({x ∈ Set.Ioo (-a) a | Y x = 0} : Set ℝ).ncard =
      2 * ({x ∈ Set.Ioo 0 a | Y x = 0} : Set ℝ).ncard + if Y 0 = 0 then 1 else 0) := by
  obtain ⟨T, hT⟩ : ∃ T : Set ℝ, T = {x ∈ Set.Ioo 0 a | Y x = 0} := ⟨_, rfl⟩
  have pT : ∀ x ∈ T, 0 < x := fun x hx => by rw [hT] at hx; exact hx.1.1
  obtain ⟨Z, hZ⟩ : ∃ Z : Set ℝ, Z = if Y 0 = 0 then {0} else ∅ := ⟨_, rfl⟩
  have Zf : Z.Finite := by rw [hZ]; split <;> simp
  have Zc : Z.ncard = if Y 0 = 0 then 1 else 0 := by rw [hZ]; split <;> simp
  have Z0 : ∀ x ∈ Z, x = 0 := fun x hx => by
    rw [hZ] at hx; split at hx <;> simp at hx; exact hx
  have e : ({x ∈ Set.Ioo (-a) a | Y x = 0} : Set ℝ) = (T ∪ (fun x => -x) '' T) ∪ Z := by
    ext x
    constructor
    · rintro ⟨⟨h1, h2⟩, h3⟩
      rcases lt_trichotomy x 0 with h | h | h
      · left; right
        refine ⟨-x, ?_, neg_neg x⟩
        rw [hT]
        exact ⟨⟨by linarith, by linarith⟩, by rw [hY x ⟨h1.le, h2.le⟩, h3, mul_zero]⟩
      · right
        subst h
        rw [hZ, if_pos h3]; rfl
      · left; left
        rw [hT]
        exact ⟨⟨h, h2⟩, h3⟩
    · rintro ((h | ⟨t, h, rfl⟩) | h)
      · rw [hT] at h
        exact ⟨⟨by linarith [h.1.1], h.1.2⟩, h.2⟩
      · rw [hT] at h
        obtain ⟨⟨h1, h2⟩, h3⟩ := h
        exact ⟨⟨by linarith, by linarith⟩, by change Y (-t) = 0; rw [hY t ⟨by linarith, h2.le⟩, h3, mul_zero]⟩
      · rw [hZ] at h
        split at h
        · rename_i h0
          rw [Set.mem_singleton_iff] at h
          subst h
          exact ⟨⟨by linarith, ha⟩, h0⟩
        · exact absurd h (by simp)
  rw [e, ← hT]
  have inj : Set.InjOn (fun x : ℝ => -x) T := fun x _ y _ h => neg_injective h
  refine ⟨⟨fun h => h.subset (Set.subset_union_left.trans Set.subset_union_left), fun h => (h.union (h.image _)).union Zf⟩, fun h => ?_⟩
  have d1 : Disjoint T ((fun x => -x) '' T) := by
    rw [Set.disjoint_left]
    rintro x hx ⟨t, ht, rfl⟩
    have := pT _ hx
    have := pT _ ht
    linarith
  have d2 : Disjoint (T ∪ (fun x => -x) '' T) Z := by
    rw [Set.disjoint_left]
    rintro x hx hz
    rw [Z0 x hz] at hx
    rcases hx with hx | ⟨t, ht, h0⟩
    · exact lt_irrefl _ (pT _ hx)
    · have := pT _ ht
      simp only at h0
      linarith
  rw [Set.ncard_union_eq d2 (h.union (h.image _)) Zf, Set.ncard_union_eq d1 h (h.image _), inj.ncard_image, Zc]
  ring

/-- A solution of a symmetric problem is even or odd. -/
theorem even_or_odd {V : ℝ → ℝ} {E a : ℝ} {s : ℝ × ℝ} {y dy : ℝ → ℝ} (ha : 0 < a) (hc : ContinuousOn V (Set.Icc (-a) a)) (hV : ∀ x ∈ Set.Icc (-a) a, V (-x) = V x) (hs : s.1 ≠ 0 ∨ s.2 ≠ 0)
    (h : SolvesOn V E (-a) a y dy) (hl : y (-a) * -s.2 = dy (-a) * s.1) (hr : y a * s.2 = dy a * s.1) :
    (∀ x ∈ Set.Icc (-a) a, y (-x) = y x ∧ dy (-x) = -dy x) ∨ (∀ x ∈ Set.Icc (-a) a, y (-x) = -y x ∧ dy (-x) = dy x) := by
  have hm := SolvesOn.mirror hV h
  rw [neg_neg] at hm
  have hP := h.comb hm 1 1
  have hQ := h.comb hm 1 (-1)
  have m0 : (0 : ℝ) ∈ Set.Icc (-a) a := ⟨by linarith, ha.le⟩
  have ma : a ∈ Set.Icc (-a) a := ⟨by linarith, le_rfl⟩
  have w := (wronskian_const hP hQ m0).trans (wronskian_const hP hQ ma).symm
  simp only [neg_zero, one_mul, neg_mul, mul_neg, neg_neg] at w
  have cr : y a * dy (-a) + y (-a) * dy a = 0 := by
    rcases hs with h1 | h1
    · have : s.1 * (y a * dy (-a) + y (-a) * dy a) = 0 := by linear_combination -y a * hl - y (-a) * hr
      exact (mul_eq_zero.mp this).resolve_left h1
    · have : s.2 * (y a * dy (-a) + y (-a) * dy a) = 0 := by linear_combination -dy a * hl + dy (-a) * hr
      exact (mul_eq_zero.mp this).resolve_left h1
  have z : y 0 * dy 0 = 0 := by linear_combination w / 4 + cr / 2
  rcases mul_eq_zero.mp z with z | z
  · right
    intro x hx
    obtain ⟨p1, p2⟩ := on_zero hc hP m0 (by simp [z]) (by simp) hx
    constructor <;> linarith
  · left
    intro x hx
    obtain ⟨p1, p2⟩ := on_zero hc hQ m0 (by simp) (by simp [z]) hx
    constructor <;> linarith

/-- From half to full. -/
theorem half_to_full {V : ℝ → ℝ} {E a : ℝ} {s : ℝ × ℝ} {k : ℕ} (even : Bool) (ha : 0 < a) (hc : ContinuousOn V (Set.Icc 0 a)) (hV : ∀ x ∈ Set.Icc 0 a, V (-x) = V x)
    (h : IsEigenvalueNrOn V 0 a (if even then (1, 0) else (0, 1)) s k E) : IsEigenvalueNrOn V (-a) a (s.1, -s.2) s (if even then 2 * k else 2 * k + 1) E := by
  obtain ⟨y, dy, hy, ⟨x, hx, hne⟩, hl, hr, hfin, hcard⟩ := h
  obtain ⟨c, hcc⟩ : ∃ c : ℝ, c = if even then 1 else -1 := ⟨_, rfl⟩
  have c2 : c * c = 1 := by rw [hcc]; split <;> norm_num
  have b1 : c * y 0 = y 0 := by
    rw [hcc]
    cases even
    · simp at hl; simp [hl]
    · simp
  have b2 : -(c * dy 0) = dy 0 := by
    rw [hcc]
    cases even
    · simp
    · simp at hl; simp [← hl]
  have hext := SolvesOn.extend ha.le hV hy b1 b2
  obtain ⟨Y, hY⟩ : ∃ Y : ℝ → ℝ, Y = fun x => if 0 ≤ x then y x else c * y (-x) := ⟨_, rfl⟩
  obtain ⟨dY, hdY⟩ : ∃ dY : ℝ → ℝ, dY = fun x => if 0 ≤ x then dy x else -(c * dy (-x)) := ⟨_, rfl⟩
  rw [← hY, ← hdY] at hext
  have pos : ∀ x, 0 ≤ x → Y x = y x ∧ dY x = dy x := fun x hx => by rw [hY, hdY]; simp [hx]
  have neg : ∀ x, x < 0 → Y x = c * y (-x) ∧ dY x = -(c * dy (-x)) := fun x hx => by rw [hY, hdY]; simp [not_le.mpr hx]
  have sym : ∀ x, Y (-x) = c * Y x := by
    intro x
    rcases lt_trichotomy x 0 with q | q | q
    · rw [(pos (-x) (by linarith)).1, (neg x q).1, ← mul_assoc, c2, one_mul]
    · subst q; rw [neg_zero, (pos 0 le_rfl).1, b1]
    · rw [(neg (-x) (by linarith)).1, (pos x q.le).1, neg_neg]
  obtain ⟨z1, z2⟩ := zeros_sym (Y := Y) (c := c) ha (fun x _ => sym x)
  have zT : ({x ∈ Set.Ioo 0 a | Y x = 0} : Set ℝ) = {x ∈ Set.Ioo 0 a | y x = 0} := by
    ext t
    constructor <;> rintro ⟨t1, t2⟩
    · exact ⟨t1, by rw [← (pos t t1.1.le).1]; exact t2⟩
    · exact ⟨t1, by rw [(pos t t1.1.le).1]; exact t2⟩
  rw [zT] at z1 z2
  refine ⟨Y, dY, hext, ⟨x, ⟨by linarith [hx.1], hx.2⟩, by rwa [(pos x hx.1).1]⟩, ?_, ?_, z1.mpr hfin, ?_⟩
  · rw [(neg (-a) (by linarith)).1, (neg (-a) (by linarith)).2, neg_neg]
    simp only
    linear_combination -c * hr
  · rw [(pos a ha.le).1, (pos a ha.le).2, hr]
  · rw [z2 hfin, hcard, (pos 0 le_rfl).1]
    cases even
    · have : y 0 = 0 := by simpa using hl
      simp [this]
    · have d0 : dy 0 = 0 := by simpa using hl.symm
      have : y 0 ≠ 0 := fun y0 => hne (on_zero hc hy ⟨le_rfl, ha.le⟩ y0 d0 hx).1
      simp [this]

/-- From full to half. -/
theorem full_to_half {V : ℝ → ℝ} {E a : ℝ} {s : ℝ × ℝ} {n : ℕ} (ha : 0 < a) (hc : ContinuousOn V (Set.Icc 0 a)) (hV : ∀ x ∈ Set.Icc 0 a, V (-x) = V x) (hs : s.1 ≠ 0 ∨ s.2 ≠ 0)
    (h : IsEigenvalueNrOn V (-a) a (s.1, -s.2) s n E) : IsEigenvalueNrOn V 0 a (if n % 2 = 0 then (1, 0) else (0, 1)) s (n / 2) E := by
  have hV' : ∀ x ∈ Set.Icc (-a) a, V (-x) = V x := by
    intro x hx
    rcases le_total 0 x with q | q
    · exact hV x ⟨q, hx.2⟩
    · have := hV (-x) ⟨by linarith, by linarith [hx.1]⟩
      rw [neg_neg] at this
      exact this.symm
  have hc' : ContinuousOn V (Set.Icc (-a) a) := by
    have : ContinuousOn (fun x => V |x|) (Set.Icc (-a) a) :=
      hc.comp continuous_abs.continuousOn (fun x hx => ⟨abs_nonneg x, abs_le.mpr hx⟩)
    refine this.congr fun x hx => ?_
    rcases abs_choice x with q | q
    · simp only; rw [q]
    · simp only; rw [q]; exact (hV' x hx).symm
  obtain ⟨y, dy, hy, ⟨x, hx, hne⟩, hl, hr, hfin, hcard⟩ := h
  have m0 : (0 : ℝ) ∈ Set.Icc (-a) a := ⟨by linarith, ha.le⟩
  have nz : ¬ (y 0 = 0 ∧ dy 0 = 0) := fun h0 => hne (on_zero hc' hy m0 h0.1 h0.2 hx).1
  have half : ∃ t ∈ Set.Icc 0 a, y t ≠ 0 := by
    by_contra hall
    push Not at hall
    have hy0 := SolvesOn.mono hy (c := 0) (d := a) (by linarith) le_rfl
    have d0 : HasDerivWithinAt y 0 (Set.Icc 0 a) 0 := (hasDerivWithinAt_const (0 : ℝ) (Set.Icc 0 a) (0 : ℝ)).congr (fun t ht => hall t ht) (hall 0 ⟨le_rfl, ha.le⟩)
    have := (uniqueDiffOn_Icc ha 0 ⟨le_rfl, ha.le⟩).eq_deriv _ (hy0.d1 0 ⟨le_rfl, ha.le⟩) d0
    exact nz ⟨hall 0 ⟨le_rfl, ha.le⟩, this⟩
  rcases even_or_odd ha hc' hV' hs hy hl hr with q | q
  · obtain ⟨z1, z2⟩ := zeros_sym (Y := y) (c := 1) ha (fun x hx => by rw [one_mul]; exact (q x hx).1)
    have d0 : dy 0 = 0 := by
      have := (q 0 m0).2
      rw [neg_zero] at this
      linarith
    have y0 : y 0 ≠ 0 := fun h0 => nz ⟨h0, d0⟩
    have e := z2 (z1.mp hfin)
    rw [hcard, if_neg y0, add_zero] at e
    have e2 : n % 2 = 0 := by omega
    rw [if_pos e2]
    exact ⟨y, dy, SolvesOn.mono hy (by linarith) le_rfl, half, by simp [d0], hr, z1.mp hfin, by omega⟩
  · obtain ⟨z1, z2⟩ := zeros_sym (Y := y) (c := -1) ha (fun x hx => by rw [neg_one_mul]; exact (q x hx).1)
    have y0 : y 0 = 0 := by
      have := (q 0 m0).1
      rw [neg_zero] at this
      linarith
    have e := z2 (z1.mp hfin)
    rw [hcard, if_pos y0] at e
    have e2 : n % 2 ≠ 0 := by omega
    rw [if_neg e2]
    exact ⟨y, dy, SolvesOn.mono hy (by linarith) le_rfl, half, by simp [y0], hr, z1.mp hfin, by omega⟩

end Verif.Solver
