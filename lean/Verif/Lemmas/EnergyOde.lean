import Verif.Lemmas.EnergyNear
import Verif.Lemmas.SectorNear
import Mathlib.MeasureTheory.Integral.IntervalIntegral.FundThmCalculus

/-!
# Energy derivatives of solutions: existence, bound, invariant
-/
namespace Verif

theorem EnergyOn.mono {V : ℝ → ℝ} {E a b c d : ℝ} {y z dz : ℝ → ℝ} (h : EnergyOn V E a b y z dz) (hc : a ≤ c) (hd : d ≤ b) : EnergyOn V E c d y z dz :=
  ⟨fun x hx => (h.d1 x ⟨hc.trans hx.1, hx.2.trans hd⟩).mono (Set.Icc_subset_Icc hc hd), fun x hx => (h.d2 x ⟨hc.trans hx.1, hx.2.trans hd⟩).mono (Set.Icc_subset_Icc hc hd)⟩

theorem EnergyOn.mirror {V : ℝ → ℝ} {E a b : ℝ} {y z dz : ℝ → ℝ} (h : EnergyOn V E a b y z dz) :
    EnergyOn (fun x => V (a + b - x)) E a b (fun x => y (a + b - x)) (fun x => z (a + b - x)) (fun x => -dz (a + b - x)) := by
  have hm : Set.MapsTo (fun x => a + b - x) (Set.Icc a b) (Set.Icc a b) := fun x hx => ⟨by linarith [hx.2], by linarith [hx.1]⟩
  have hd : ∀ x, HasDerivWithinAt (fun x => a + b - x) (-1) (Set.Icc a b) x := fun x => ((hasDerivAt_id x).const_sub (a + b)).hasDerivWithinAt
  constructor
  · intro x hx
    exact ((h.d1 (a + b - x) (hm hx)).comp x (hd x) hm).congr_deriv (by ring)
  · intro x hx
    exact ((h.d2 (a + b - x) (hm hx)).comp x (hd x) hm).fun_neg.congr_deriv (by ring)

/-- Adding a solution to an energy derivative. -/
theorem EnergyOn.add_solution {V : ℝ → ℝ} {E a b : ℝ} {y z dz u du : ℝ → ℝ} (h : EnergyOn V E a b y z dz) (hu : SolvesOn V E a b u du) (c : ℝ) :
    EnergyOn V E a b y (fun x => z x + c * u x) (fun x => dz x + c * du x) :=
  ⟨fun x hx => (h.d1 x hx).add ((hu.d1 x hx).const_mul c), fun x hx => ((h.d2 x hx).add ((hu.d2 x hx).const_mul c)).congr_deriv (by ring)⟩

/-- Linear combinations. -/
theorem EnergyOn.comb {V : ℝ → ℝ} {E a b : ℝ} {y z dz y' z' dz' : ℝ → ℝ} (h : EnergyOn V E a b y z dz) (h' : EnergyOn V E a b y' z' dz') (α β : ℝ) :
    EnergyOn V E a b (fun x => α * y x + β * y' x) (fun x => α * z x + β * z' x) (fun x => α * dz x + β * dz' x) :=
  ⟨fun x hx => ((h.d1 x hx).const_mul α).add ((h'.d1 x hx).const_mul β),
    fun x hx => (((h.d2 x hx).const_mul α).add ((h'.d2 x hx).const_mul β)).congr_deriv (by ring)⟩

/-- The difference of two energy derivatives of the same solution is a solution. -/
theorem EnergyOn.sub {V : ℝ → ℝ} {E a b : ℝ} {y z dz z' dz' : ℝ → ℝ} (h : EnergyOn V E a b y z dz) (h' : EnergyOn V E a b y z' dz') :
    SolvesOn V E a b (fun x => z x - z' x) (fun x => dz x - dz' x) :=
  ⟨fun x hx => (h.d1 x hx).sub (h'.d1 x hx), fun x hx => ((h.d2 x hx).sub (h'.d2 x hx)).congr_deriv (by ring)⟩

/-- The bilinear invariant of two solutions with their energy derivatives. -/
theorem energy_const {V : ℝ → ℝ} {E a b : ℝ} {y dy z dz y' dy' z' dz' : ℝ → ℝ} (hy : SolvesOn V E a b y dy) (hz : EnergyOn V E a b y z dz)
    (hy' : SolvesOn V E a b y' dy') (hz' : EnergyOn V E a b y' z' dz') {x : ℝ} (hx : x ∈ Set.Icc a b) :
    y x * dz' x - dy x * z' x + (z x * dy' x - dz x * y' x) = y a * dz' a - dy a * z' a + (z a * dy' a - dz a * y' a) := by
  have H : ∀ t ∈ Set.Icc a b, HasDerivWithinAt (fun x => y x * dz' x - dy x * z' x + (z x * dy' x - dz x * y' x)) 0 (Set.Icc a b) t := by
    intro t ht
    exact ((((hy.d1 t ht).mul (hz'.d2 t ht)).sub ((hy.d2 t ht).mul (hz'.d1 t ht))).add
      (((hz.d1 t ht).mul (hy'.d2 t ht)).sub ((hz.d2 t ht).mul (hy'.d1 t ht)))).congr_deriv (by ring)
  have key := constant_of_has_deriv_right_zero (f := fun x => y x * dz' x - dy x * z' x + (z x * dy' x - dz x * y' x)) (a := a) (b := b)
    (fun t ht => (H t ht).continuousWithinAt) (fun t ht => deriv_right ht (H t ⟨ht.1, ht.2.le⟩))
  exact key x hx

/-- a primitive of a function continuous on an interval -/
theorem exists_primitive {a b : ℝ} {g : ℝ → ℝ} (hg : ContinuousOn g (Set.Icc a b)) (hab : a ≤ b) (x0 : ℝ) :
    ∃ G : ℝ → ℝ, G x0 = 0 ∧ ∀ x ∈ Set.Icc a b, HasDerivWithinAt G (g x) (Set.Icc a b) x := by
  have hc : Continuous (Set.IccExtend hab (Set.domRestrict (Set.Icc a b) g)) := (continuousOn_iff_continuous_domRestrict.mp hg).Icc_extend'
  refine ⟨fun x => ∫ t in x0..x, Set.IccExtend hab (Set.domRestrict (Set.Icc a b) g) t, by simp, fun x hx => ?_⟩
  have := (intervalIntegral.integral_hasDerivAt_right (hc.intervalIntegrable x0 x) hc.stronglyMeasurable.stronglyMeasurableAtFilter hc.continuousAt).hasDerivWithinAt (s := Set.Icc a b)
  rw [Set.IccExtend_of_mem hab _ hx] at this
  exact this

/-- **Existence of the energy derivative** with given values at any point. -/
theorem exists_energy {V : ℝ → ℝ} {E a b : ℝ} (hV : ContinuousOn V (Set.Icc a b)) {x : ℝ} (hx : x ∈ Set.Icc a b) {y dy : ℝ → ℝ} (hy : SolvesOn V E a b y dy) (u : ℝ × ℝ) :
    ∃ z dz : ℝ → ℝ, EnergyOn V E a b y z dz ∧ z x = u.1 ∧ dz x = u.2 := by
  have hab := hx.1.trans hx.2
  obtain ⟨φ, dφ, ψ, dψ, hφ, hψ, -, -, -, -, hw⟩ := fundamental (E := E) hab hV
  have cy : ContinuousOn y (Set.Icc a b) := fun t ht => (hy.d1 t ht).continuousWithinAt
  have cφ : ContinuousOn φ (Set.Icc a b) := fun t ht => (hφ.d1 t ht).continuousWithinAt
  have cψ : ContinuousOn ψ (Set.Icc a b) := fun t ht => (hψ.d1 t ht).continuousWithinAt
  obtain ⟨A, A0, hA⟩ := exists_primitive (cψ.mul cy) hab x
  obtain ⟨B, B0, hB⟩ := exists_primitive (cφ.mul cy) hab x
  have hz : EnergyOn V E a b y (fun t => φ t * A t - ψ t * B t) (fun t => dφ t * A t - dψ t * B t) := by
    constructor
    · intro t ht
      exact (((hφ.d1 t ht).mul (hA t ht)).sub ((hψ.d1 t ht).mul (hB t ht))).congr_deriv (by simp only [Pi.mul_apply]; ring)
    · intro t ht
      refine (((hφ.d2 t ht).mul (hA t ht)).sub ((hψ.d2 t ht).mul (hB t ht))).congr_deriv ?_
      have w := hw t ht
      simp only [Pi.mul_apply]
      linear_combination (-y t) * w
  obtain ⟨s, ds, hs, s1, s2⟩ := exists_solution_at (E := E) hV hx u
  refine ⟨_, _, hz.add_solution hs 1, ?_, ?_⟩
  · simp only [A0, B0, s1]; ring
  · simp only [A0, B0, s2]; ring

/-- Bound of the energy derivative, to the right. -/
theorem energy_bound_right {V : ℝ → ℝ} {E a b K r : ℝ} {y z dz : ℝ → ℝ} (hK : 1 ≤ K) (hV : ContinuousOn V (Set.Icc a b)) (hq : ∀ x ∈ Set.Icc a b, |V x - E| ≤ K)
    (hz : EnergyOn V E a b y z dz) (hr0 : 0 ≤ r) (hr : ∀ x ∈ Set.Icc a b, |y x| ≤ r) {x x' : ℝ} (hx : x ∈ Set.Icc a b) (hx' : x' ∈ Set.Icc a b) (hxx : x ≤ x') :
    sz (z x', dz x') ≤ Real.exp (K * |x' - x|) * (sz (z x, dz x) + r * |x' - x|) := by
  obtain ⟨s, ds, hs, s1, s2⟩ := exists_solution_at (E := E) hV hx (z x, dz x)
  have hsub : ∀ t ∈ Set.Icc x x', t ∈ Set.Icc a b := fun t ht => ⟨hx.1.trans ht.1, ht.2.trans hx'.2⟩
  have hz' := hz.mono hx.1 hx'.2
  have hs' := hs.mono hx.1 hx'.2
  have key := defect_bound (a := x) (b := x') (K := K) (r := r) (q := fun t => V t - E) (u := z) (du := dz) (w := dz) (dw := fun t => (V t - E) * z t - y t) (y := s) (dy := ds)
    hK hr0 (fun t ht => hq t (hsub t ht)) hz'.d1 hz'.d2 (fun t ht => by simpa using hr0)
    (fun t ht => by rw [sub_sub_cancel_left, abs_neg]; exact hr t (hsub t ht)) hs'.d1 hs'.d2 s1.symm s2.symm (x := x') ⟨hxx, le_rfl⟩
  have fb := flow_bound hK hq hs hx hx'
  rw [s1, s2] at fb
  rw [abs_of_nonneg (by linarith : 0 ≤ x' - x)] at *
  have h1 := sz_le_add (z x', dz x') (s x', ds x')
  have h2 : sz ((z x', dz x') - (s x', ds x')) ≤ r * (x' - x) * Real.exp (K * (x' - x)) := sz_le key.1 key.2
  linarith

/-- **Bound of the energy derivative.** -/
theorem energy_bound {V : ℝ → ℝ} {E a b K r : ℝ} {y z dz : ℝ → ℝ} (hK : 1 ≤ K) (hV : ContinuousOn V (Set.Icc a b)) (hq : ∀ x ∈ Set.Icc a b, |V x - E| ≤ K)
    (hz : EnergyOn V E a b y z dz) (hr0 : 0 ≤ r) (hr : ∀ x ∈ Set.Icc a b, |y x| ≤ r) {x x' : ℝ} (hx : x ∈ Set.Icc a b) (hx' : x' ∈ Set.Icc a b) :
    sz (z x', dz x') ≤ Real.exp (K * |x' - x|) * (sz (z x, dz x) + r * |x' - x|) := by
  rcases le_total x x' with h | h
  · exact energy_bound_right hK hV hq hz hr0 hr hx hx' h
  · have mem : ∀ {t : ℝ}, t ∈ Set.Icc a b → a + b - t ∈ Set.Icc a b := fun ht => ⟨by linarith [ht.2], by linarith [ht.1]⟩
    have hV' : ContinuousOn (fun t => V (a + b - t)) (Set.Icc a b) :=
      hV.comp (continuousOn_const.sub continuousOn_id) (fun t ht => mem ht)
    have := energy_bound_right hK hV' (fun t ht => hq _ (mem ht)) hz.mirror hr0 (fun t ht => hr _ (mem ht)) (mem hx) (mem hx') (by linarith)
    simp only [sub_sub_cancel] at this
    have e : ∀ t, sz (z t, -dz t) = sz (z t, dz t) := fun t => sz_flipY (z t, dz t)
    rw [e, e] at this
    have e2 : |a + b - x' - (a + b - x)| = |x' - x| := by rw [abs_sub_comm]; congr 1; ring
    rwa [e2] at this

/-- If a matrix is near the energy derivative of the flow from `a` to `x`, its adjugate is near the one from `x` to `a`. -/
theorem DNear.adj {V : ℝ → ℝ} {E a b x e : ℝ} {A B C D : ℝ} (h : DNear V E a b (mv A B C D) a x e) (hV : ContinuousOn V (Set.Icc a b))
    (hx : x ∈ Set.Icc a b) : DNear V E a b (mv D (-B) (-C) A) x a (2 * e) := by
  have hab := hx.1.trans hx.2
  have ha : a ∈ Set.Icc a b := ⟨le_rfl, hab⟩
  obtain ⟨φ, dφ, ψ, dψ, hφ, hψ, e1, e2, e3, e4, _⟩ := fundamental (E := E) hab hV
  obtain ⟨φz, dφz, hφz, f1, f2⟩ := exists_energy hV ha hφ (0, 0)
  obtain ⟨ψz, dψz, hψz, f3, f4⟩ := exists_energy hV ha hψ (0, 0)
  intro y dy z dz hy hz z1 z2
  have w1 := energy_const hy hz hψ hψz hx
  have w2 := energy_const hy hz hφ hφz hx
  simp only at f1 f2 f3 f4
  rw [e3, e4, f3, f4, z1, z2] at w1
  rw [e1, e2, f1, f2, z1, z2] at w2
  have k1 := h φ dφ φz dφz hφ hφz f1 f2
  have k2 := h ψ dψ ψz dψz hψ hψz f3 f4
  rw [e1, e2] at k1
  rw [e3, e4] at k2
  have s1 : sz (1, 0) = 1 := by simp [sz]
  have s2 : sz (0, 1) = 1 := by simp [sz]
  rw [s1, mul_one] at k1
  rw [s2, mul_one] at k2
  have a1 := (le_sz1 _).trans k1
  have a2 := (le_sz2 _).trans k1
  have a3 := (le_sz1 _).trans k2
  have a4 := (le_sz2 _).trans k2
  simp only [mv, Prod.fst_sub, Prod.snd_sub, mul_one, mul_zero, add_zero, zero_add] at a1 a2 a3 a4
  have e0 : 0 ≤ e := (abs_nonneg _).trans a1
  have y1 := le_sz1 (y x, dy x)
  have y2 := le_sz2 (y x, dy x)
  simp only at y1 y2
  have lin : ∀ {p q : ℝ}, |p| ≤ e → |q| ≤ e → |p * y x + q * dy x| ≤ 2 * e * sz (y x, dy x) := by
    intro p q hp hq
    refine (abs_add_le _ _).trans ?_
    rw [abs_mul, abs_mul]
    have := mul_le_mul hp y1 (abs_nonneg _) e0
    have := mul_le_mul hq y2 (abs_nonneg _) e0
    linarith
  refine sz_le ?_ ?_
  · have : (mv D (-B) (-C) A (y x, dy x) - (z a, dz a)).1 = (D - dψz x) * y x + -(B - ψz x) * dy x := by
      simp only [mv, Prod.fst_sub]; linear_combination w1
    rw [this]
    exact lin a4 (by rwa [abs_neg])
  · have : (mv D (-B) (-C) A (y x, dy x) - (z a, dz a)).2 = -(C - dφz x) * y x + (A - φz x) * dy x := by
      simp only [mv, Prod.snd_sub]; linear_combination -w2
    rw [this]
    exact lin (by rwa [abs_neg]) a1

theorem DNear.mirror {V : ℝ → ℝ} {E a b : ℝ} {D : ℝ × ℝ → ℝ × ℝ} {x x' e : ℝ} (h : DNear (fun x => V (a + b - x)) E a b D x x' e) :
    DNear V E a b (fun u => flipY (D (flipY u))) (a + b - x) (a + b - x') e := by
  intro y dy z dz hy hz z1 z2
  have h1 := h _ _ _ _ hy.mirror hz.mirror z1 (by rw [z2, neg_zero])
  have e1 : ∀ (p q : ℝ → ℝ) t, (p t, -q t) = flipY (p t, q t) := fun p q t => rfl
  rw [e1, e1, sz_flipY] at h1
  have : flipY (D (flipY (y (a + b - x), dy (a + b - x)))) - (z (a + b - x'), dz (a + b - x')) =
      flipY (D (flipY (y (a + b - x), dy (a + b - x))) - flipY (z (a + b - x'), dz (a + b - x'))) := by
    rw [← flipY_sub, flipY_flipY]
  rw [this, sz_flipY]
  exact h1

end Verif
