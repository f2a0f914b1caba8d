import Verif.Lemmas.ExactAngle
import Verif.Spec.EigenNr

/-!
# The exact matching angle counts eigenvalues
-/
namespace Verif.Solver
open Verif Verif.Prufer Verif.YT Verif.CalcT Verif.Mesh Verif.Propag Verif.Formulas Verif.Legendre Verif.Spec
open Real (pi)

theorem rescale_continuous {σ : ℝ} (hσ : 0 < σ) : Continuous (fun θ => rescale θ σ) := by
  rw [continuous_iff_continuousAt]
  intro θ
  unfold rescale atan2
  dsimp only
  refine continuousAt_id.add ?_
  have hz : ContinuousAt (fun θ : ℝ => (⟨1 + (σ - 1) * Real.sin θ * Real.sin θ, (σ - 1) * Real.sin θ * Real.cos θ⟩ : ℂ)) θ := by
    have e : (fun θ : ℝ => (⟨1 + (σ - 1) * Real.sin θ * Real.sin θ, (σ - 1) * Real.sin θ * Real.cos θ⟩ : ℂ)) =
        fun θ : ℝ => ((1 + (σ - 1) * Real.sin θ * Real.sin θ : ℝ) : ℂ) + ((σ - 1) * Real.sin θ * Real.cos θ : ℝ) * Complex.I := by
      funext θ
      exact Complex.mk_eq_add_mul_I _ _
    rw [e]
    fun_prop
  refine ContinuousAt.comp (g := Complex.arg) (Complex.continuousAt_arg ?_) hz
  left
  show (0 : ℝ) < 1 + (σ - 1) * Real.sin θ * Real.sin θ
  rcases eq_or_ne (Real.sin θ) 0 with h | h
  · rw [h]; norm_num
  · have : 0 < Real.sin θ ^ 2 := by positivity
    nlinarith [mul_pos hσ this, sq_nonneg (Real.cos θ), Real.sin_sq_add_cos_sq θ]

theorem ContAngle.rescale {A B sc : ℝ} (hsc : 0 < sc) {y dy Θ : ℝ → ℝ} (h : ContAngle A B 1 y dy Θ) : ContAngle A B sc y dy (fun x => rescale (Θ x) sc) :=
  ⟨(rescale_continuous hsc).comp_continuousOn h.cont, fun x hx => by
    have := rescale_angle hsc (h.angle x hx)
    rwa [one_mul] at this⟩

theorem rescale_int {sc : ℝ} (hsc : 0 < sc) (k : ℤ) : rescale (k * pi) sc = k * pi := by
  have h0 : rescale 0 sc = 0 := by
    have := (C37_rescale sc hsc).2.2.2.1 0
    simpa using this
  have := rescale_add_int_mul_pi 0 sc k
  rwa [zero_add, h0, zero_add] at this

theorem rescale_diff {sc α β : ℝ} (hsc : 0 < sc) (k : ℤ) : (rescale α sc - rescale β sc < k * pi ↔ α - β < k * pi) ∧ (k * pi < rescale α sc - rescale β sc ↔ k * pi < α - β) := by
  have e := rescale_add_int_mul_pi β sc k
  have hm := rescale_strictMono hsc
  have h1 : rescale α sc < rescale (β + k * pi) sc ↔ α < β + k * pi := hm.lt_iff_lt
  have h2 : rescale (β + k * pi) sc < rescale α sc ↔ β + k * pi < α := hm.lt_iff_lt
  rw [e] at h1 h2
  constructor
  · rw [sub_lt_iff_lt_add', h1, sub_lt_iff_lt_add']
  · rw [lt_sub_iff_add_lt', h2, lt_sub_iff_add_lt']

/-- A small sine. -/
theorem sin_small {φ t : ℝ} (h : |Real.sin φ| ≤ t) : ∃ k : ℤ, |φ - k * pi| ≤ 2 * t := by
  have hp := Real.pi_pos
  refine ⟨round (φ / pi), ?_⟩
  set k := round (φ / pi)
  have h1 : |φ - k * pi| ≤ pi / 2 := by
    have := abs_sub_round (φ / pi)
    rw [show φ - k * pi = (φ / pi - k) * pi by field_simp, abs_mul, abs_of_pos hp]
    nlinarith
  have h2 := Real.mul_abs_le_abs_sin h1
  have h3 : |Real.sin (φ - k * pi)| = |Real.sin φ| := by
    rw [Real.sin_sub_int_mul_pi, abs_mul, abs_zpow]; simp
  rw [h3] at h2
  have h4 : 2 / pi * |φ - k * pi| ≤ t := h2.trans h
  rw [div_mul_eq_mul_div, div_le_iff₀ hp] at h4
  have h5 : 0 ≤ t := (abs_nonneg _).trans h
  have := Real.pi_lt_four
  nlinarith

/-- The Wronskian of two solutions in terms of their angles. -/
theorem wronsk_angle {sc θ φ u v p q : ℝ} (hθ : IsAngle θ (sc * u) v) (hφ : IsAngle φ (sc * p) q) :
    ∃ ρ, ρ * Real.sin (θ - φ) = sc * (u * q - v * p) ∧ ρ ^ 2 = ((sc * u) ^ 2 + v ^ 2) * ((sc * p) ^ 2 + q ^ 2) := by
  obtain ⟨r, e1, e2⟩ := hθ.rep
  obtain ⟨r', e3, e4⟩ := hφ.rep
  refine ⟨r * r', ?_, ?_⟩
  · rw [Real.sin_sub, show sc * (u * q - v * p) = (sc * u) * q - v * (sc * p) by ring, e1, e2, e3, e4]; ring
  · have h1 : (sc * u) ^ 2 + v ^ 2 = r ^ 2 := by rw [e1, e2]; linear_combination r ^ 2 * Real.sin_sq_add_cos_sq θ
    have h2 : (sc * p) ^ 2 + q ^ 2 = r' ^ 2 := by rw [e3, e4]; linear_combination r' ^ 2 * Real.sin_sq_add_cos_sq φ
    rw [h1, h2]; ring

theorem IsAngle.parallel {φ u v p q : ℝ} (h : IsAngle φ p q) (hne : ¬ (p = 0 ∧ q = 0)) (hw : u * q = v * p) : IsAngle φ u v := by
  obtain ⟨r, e1, e2⟩ := h.rep
  have hr : r ≠ 0 := by rintro rfl; exact hne ⟨by rw [e1]; ring, by rw [e2]; ring⟩
  unfold IsAngle
  rw [e1, e2] at hw
  refine mul_left_cancel₀ hr ?_
  linarith

/-- two normalised angles of one direction -/
theorem normal_unique {θ φ u v : ℝ} (hθ : IsAngle θ u v) (hφ : IsAngle φ u v) (hne : ¬ (u = 0 ∧ v = 0)) (hd : |θ - φ| < pi) : θ = φ := by
  obtain ⟨k, hk⟩ := hφ.unique hθ hne
  have : k = 0 := int_pi_zero (by rw [show (k : ℝ) * pi = θ - φ by linarith]; exact hd)
  rw [this] at hk
  push_cast at hk
  linarith

/-- What is needed of the exact problem: its matching angle `D`, with the solutions `y` from the left and `z` from the right. -/
structure ExactCount (C M : ℝ) (W : Sec ℝ → ℝ → ℝ) (a b : ℝ) (l : List (Sec ℝ)) (L R : ℝ × ℝ) (D : ℝ → ℝ) (y dy z dz : ℝ → ℝ → ℝ) : Prop where
  ysol : ∀ E, |E| ≤ M → SolvesMesh W E l (y E) (dy E) ∧ y E a = L.1 ∧ dy E a = L.2
  zsol : ∀ E, |E| ≤ M → SolvesMesh W E l (z E) (dz E) ∧ z E b = R.1 ∧ dz E b = R.2
  rate : ∀ E F, |E| ≤ M → |F| ≤ M → E ≤ F → C * (F - E) ≤ 1 → D F - D E ≤ C * (F - E) ∧ F - E ≤ C * (D F - D E)
  index : ∀ E, |E| ≤ M → ∀ N : ℤ, D E = N * pi ↔ ∃ n : ℕ, N = n ∧ IsEigenvalueNr W l a b L R n E
  angles : ∀ E, |E| ≤ M → ∀ sc, 1 ≤ sc → sc ^ 2 ≤ 3 * M → ∃ Θl Θr, ContAngle a b sc (y E) (dy E) Θl ∧ ContAngle a b sc (z E) (dz E) Θr ∧
    (0 ≤ Θl a ∧ Θl a < pi) ∧ (0 < Θr b ∧ Θr b ≤ pi) ∧ ∀ x ∈ Set.Icc a b,
      (∀ k : ℤ, (D E < k * pi → Θl x - Θr x < k * pi) ∧ (k * pi < D E → k * pi < Θl x - Θr x)) ∧
      ∀ (k : ℤ) (η : ℝ), |Θl x - Θr x - k * pi| ≤ η → ∃ k' : ℤ, |D E - k' * pi| ≤ C * η

theorem sz_pos_iff {u : ℝ × ℝ} : 0 < sz u ↔ ¬ (u.1 = 0 ∧ u.2 = 0) := by
  unfold sz
  constructor
  · rintro h ⟨h1, h2⟩
    rw [h1, h2] at h; simp at h
  · intro h
    by_cases h1 : u.1 = 0
    · exact lt_max_of_lt_right (abs_pos.mpr (fun h2 => h ⟨h1, h2⟩))
    · exact lt_max_of_lt_left (abs_pos.mpr h1)

theorem sz_sq_le (u : ℝ × ℝ) : sz u ^ 2 ≤ u.1 ^ 2 + u.2 ^ 2 ∧ u.1 ^ 2 + u.2 ^ 2 ≤ 2 * sz u ^ 2 := by
  have h1 := pow_le_pow_left₀ (abs_nonneg _) (le_sz1 u) 2
  have h2 := pow_le_pow_left₀ (abs_nonneg _) (le_sz2 u) 2
  rw [sq_abs] at h1 h2
  refine ⟨?_, by linarith⟩
  have := sq_nonneg u.1
  have := sq_nonneg u.2
  rcases sz_eq u with h | h
  · rw [← h, sq_abs]; linarith
  · rw [← h, sq_abs]; linarith

set_option maxHeartbeats 1000000 in
theorem exact_count (M : ℝ) (hM : 1 ≤ M) : ∃ C : ℝ, 1 ≤ C ∧ ∀ (W : Sec ℝ → ℝ → ℝ) (a b : ℝ) (l : List (Sec ℝ)) (L R : ℝ × ℝ),
    Ok M W a l b → 0 < sz L → 0 < sz R → ∃ D y dy z dz, ExactCount C M W a b l L R D y dy z dz := by
  obtain ⟨C1, hC1, step⟩ := family_step M hM
  have hG := one_le_G hM
  have hG0 : 0 < G M := by linarith
  set C2 := 12 * M * G M ^ 4 with hC2
  have p2 : 0 < C2 := by positivity
  refine ⟨C1 + C2, by linarith, ?_⟩
  intro W a b l L R h hL hR
  have hab := ok_lt hM h
  have ma : a ∈ Set.Icc a b := ⟨le_rfl, hab.le⟩
  have mb : b ∈ Set.Icc a b := ⟨hab.le, le_rfl⟩
  obtain ⟨θ0, t1, t2, -⟩ := exists_normal_angle L.1 L.2 0 1
  obtain ⟨β, b1, -, b2⟩ := exists_normal_angle R.1 R.2 1 0
  have t2 := t2 (by norm_num)
  have b2 := b2 (by norm_num)
  obtain ⟨y, dy, Θ, hy⟩ := left_family hM h hL t1
  have zex : ∀ E, ∃ z dz Φ : ℝ → ℝ, |E| ≤ M → SolvesMesh W E l z dz ∧ z b = R.1 ∧ dz b = R.2 ∧ ContAngle a b 1 z dz Φ ∧ Φ b = β := by
    intro E
    by_cases hE : |E| ≤ M
    · obtain ⟨z, dz, hz, z1, z2⟩ := mesh_exists_at (h.okMesh hM (E := E) (by linarith)) mb R
      have c1 := ok_c1 hM h hE hz mb (by rw [z1, z2]; exact hR)
      obtain ⟨Φ, h1, h2⟩ := contAngle_exists hab (sc := 1) one_pos c1 mb (θ := β) (by rw [z1, z2, one_mul]; exact b1)
      exact ⟨z, dz, Φ, fun _ => ⟨hz, z1, z2, h1, h2⟩⟩
    · exact ⟨0, 0, 0, fun h => absurd h hE⟩
  choose z dz Φ hz using zex
  refine ⟨fun E => Θ E b - β, y, dy, z, dz, ?_⟩
  constructor
  · intro E hE
    exact ⟨(hy E hE).1, (hy E hE).2.1, (hy E hE).2.2.1⟩
  · intro E hE
    exact ⟨(hz E hE).1, (hz E hE).2.1, (hz E hE).2.2.1⟩
  · intro E F hE hF hEF hC
    obtain ⟨y1, y2, y3, y4, y5⟩ := hy E hE
    obtain ⟨w1, w2, w3, w4, w5⟩ := hy F hF
    have d0 : 0 ≤ F - E := by linarith
    have q := mul_nonneg p2.le d0
    obtain ⟨s1, s2⟩ := step W a b E F l (y E) (dy E) (Θ E) (y F) (dy F) (Θ F) h hE hF y1 w1 (by rw [y2, w2]) (by rw [y3, w3]) (by rw [y2, y3]; exact hL)
      y4 w4 (by rw [y5, w5]) hEF (by linarith)
    show Θ F b - β - (Θ E b - β) ≤ _ ∧ _ ≤ (C1 + C2) * (Θ F b - β - (Θ E b - β))
    rw [show Θ F b - β - (Θ E b - β) = Θ F b - Θ E b by ring]
    have q0 : 0 ≤ Θ F b - Θ E b := by
      by_contra hc
      push Not at hc
      have := mul_neg_of_pos_of_neg (show 0 < C1 by linarith) hc
      linarith
    have := mul_nonneg p2.le q0
    constructor <;> linarith
  · -- index
    intro E hE N
    obtain ⟨y1, y2, y3, y4, y5⟩ := hy E hE
    obtain ⟨z1, z2, z3, z4, z5⟩ := hz E hE
    have cy := ok_c1 hM h hE y1 ma (by rw [y2, y3]; exact hL)
    have hyb := ok_nonzero hM h hE y1 ma mb (by rw [y2, y3]; exact hL)
    have yne : ∃ x ∈ Set.Icc a b, y E x ≠ 0 := by
      by_contra hc
      push Not at hc
      -- y vanishes, so its derivative does
      have hd := cy.deriv a ma
      have hu : UniqueDiffWithinAt ℝ (Set.Icc a b) a := (uniqueDiffOn_Icc hab) a ma
      have h0 : HasDerivWithinAt (y E) 0 (Set.Icc a b) a := (hasDerivWithinAt_const a (Set.Icc a b) (0 : ℝ)).congr (fun x hx => hc x hx) (hc a ma)
      have := hu.eq_deriv _ hd h0
      exact cy.simple a ma ⟨hc a ma, this⟩
    constructor
    · intro hD
      have hD : Θ E b - β = N * pi := hD
      -- the solution from the left satisfies the right condition
      have aβ : IsAngle β (1 * y E b) (dy E b) := by
        have := (y4.angle b mb).add_int_mul_pi (-N)
        push_cast at this
        rwa [show Θ E b + -(N : ℝ) * pi = β by linarith] at this
      obtain ⟨Θr, hr, er⟩ := contAngle_exists hab (sc := 1) one_pos cy mb aβ
      obtain ⟨fin, cnt⟩ := interior_count hab one_pos cy y4 hr (by rw [y5]; exact t2) (by rw [er]; exact b2)
      have c := cnt b mb
      rw [er, hD] at c
      have hN : (N : ℝ) = ((({x ∈ Set.Ioo a b | y E x = 0} : Set ℝ).ncard : ℤ) : ℝ) := by
        push_cast
        exact mul_right_cancel₀ Real.pi_ne_zero c
      refine ⟨_, by exact_mod_cast hN, y E, dy E, y1, yne, ?_, ?_, fin, rfl⟩
      · rw [y2, y3]; ring
      · rw [one_mul] at aβ
        obtain ⟨r1, e1, e2⟩ := aβ.rep
        obtain ⟨r2, e3, e4⟩ := b1.rep
        rw [e1, e2, e3, e4]; ring
    · rintro ⟨n, rfl, f, df, hf, ⟨x0, hx0, hne⟩, bl, br, fin, cnt⟩
      have cf := ok_c1 hM h hE hf hx0 (sz_pos_iff.mpr (fun h' => hne h'.1))
      have fa : ¬ (f a = 0 ∧ df a = 0) := cf.simple a ma
      have fb : ¬ (f b = 0 ∧ df b = 0) := cf.simple b mb
      have Lne := sz_pos_iff.mp hL
      have Rne := sz_pos_iff.mp hR
      obtain ⟨Θf, hΘf, ef⟩ := contAngle_exists hab (sc := 1) one_pos cf ma (θ := θ0) (by rw [one_mul]; exact IsAngle.parallel t1 Lne bl)
      obtain ⟨Φf, hΦf, eΦ⟩ := contAngle_exists hab (sc := 1) one_pos cf mb (θ := β) (by rw [one_mul]; exact IsAngle.parallel b1 Rne br)
      obtain ⟨-, c⟩ := interior_count hab one_pos cf hΘf hΦf (by rw [ef]; exact t2) (by rw [eΦ]; exact b2)
      have c := c b mb
      rw [eΦ, cnt] at c
      -- the family's solution is parallel to f everywhere
      have hw : ∀ x ∈ Set.Icc a b, f x * dy E x = df x * y E x := by
        intro x hx
        have := wronskR (hf.right (h.okMesh hM (E := E) (by linarith))) (y1.right (h.okMesh hM (E := E) (by linarith))) hx
        rw [y2, y3] at this
        linarith
      have ang : ∀ x ∈ Set.Icc a b, IsAngle (Θ E x) (1 * f x) (df x) := fun x hx => by
        rw [one_mul]
        have := y4.angle x hx
        rw [one_mul] at this
        exact IsAngle.parallel this (cy.simple x hx) (hw x hx)
      have := lift_unique (Set.ordConnected_Icc.isPreconnected) y4.cont hΘf.cont ang hΘf.angle (fun x hx h' => cf.simple x hx ⟨by linarith [h'.1], h'.2⟩) ma mb
      show Θ E b - β = ((n : ℤ) : ℝ) * pi
      push_cast
      rw [y5, ef] at this
      linarith
  · -- angles
    intro E hE sc hsc hsc2
    obtain ⟨y1, y2, y3, y4, y5⟩ := hy E hE
    obtain ⟨z1, z2, z3, z4, z5⟩ := hz E hE
    have cy := ok_c1 hM h hE y1 ma (by rw [y2, y3]; exact hL)
    have cz := ok_c1 hM h hE z1 mb (by rw [z2, z3]; exact hR)
    have s0 : 0 < sc := by linarith
    have wr : ∀ x ∈ Set.Icc a b, y E x * dz E x - dy E x * z E x = y E b * dz E b - dy E b * z E b := fun x hx => by
      have e1 := wronskR (y1.right (h.okMesh hM (E := E) (by linarith))) (z1.right (h.okMesh hM (E := E) (by linarith))) hx
      have e2 := wronskR (y1.right (h.okMesh hM (E := E) (by linarith))) (z1.right (h.okMesh hM (E := E) (by linarith))) mb
      linarith
    set w := y E b * dz E b - dy E b * z E b with hwd
    have mono := rescale_strictMono s0
    have r0 : rescale 0 sc = 0 := by simpa using rescale_int s0 0
    have rp : rescale pi sc = pi := by simpa using rescale_int s0 1
    refine ⟨_, _, ContAngle.rescale s0 y4, ContAngle.rescale s0 z4, ?_, ?_, ?_⟩
    · rw [y5]
      constructor
      · have := mono.monotone t2.1
        rwa [r0] at this
      · have := mono t2.2
        dsimp only at this
        rwa [rp] at this
    · rw [z5]
      constructor
      · have := mono b2.1
        dsimp only at this
        rwa [r0] at this
      · have := mono.monotone b2.2
        rwa [rp] at this
    intro x hx
    -- the difference of the angles at x and at b
    have cmp : ∀ k : ℤ, (Θ E b - β < k * pi → Θ E x - Φ E x < k * pi) ∧ (k * pi < Θ E b - β → k * pi < Θ E x - Φ E x) := by
      intro k
      by_cases hw0 : w = 0
      · have ang : ∀ x ∈ Set.Icc a b, IsAngle (Φ E x) (1 * y E x) (dy E x) := fun x hx => by
          have := z4.angle x hx
          rw [one_mul] at this ⊢
          exact IsAngle.parallel this (cz.simple x hx) (by have := wr x hx; rw [hw0] at this; linarith)
        have := lift_unique (Set.ordConnected_Icc.isPreconnected) y4.cont z4.cont y4.angle ang (fun x hx h' => cy.simple x hx ⟨by linarith [h'.1], h'.2⟩) hx mb
        rw [z5] at this
        constructor <;> intro h' <;> linarith
      · have ns : ∀ t ∈ Set.Icc a b, Real.sin (Θ E t - Φ E t) ≠ 0 := by
          intro t ht hs
          obtain ⟨ρ, e1, -⟩ := wronsk_angle (y4.angle t ht) (z4.angle t ht)
          rw [hs, mul_zero, one_mul, wr t ht] at e1
          exact hw0 e1.symm
        have fl := floor_const (Set.ordConnected_Icc.isPreconnected) (f := fun t => Θ E t - Φ E t) (y4.cont.sub z4.cont) ns hx mb
        rw [z5] at fl
        have hp := Real.pi_pos
        have n1 := Int.floor_le ((Θ E x - Φ E x) / pi)
        have n2 := Int.lt_floor_add_one ((Θ E x - Φ E x) / pi)
        have n3 := Int.floor_le ((Θ E b - β) / pi)
        have n4 := Int.lt_floor_add_one ((Θ E b - β) / pi)
        rw [fl] at n1 n2
        set m := ⌊(Θ E b - β) / pi⌋
        rw [le_div_iff₀ hp] at n1 n3
        rw [div_lt_iff₀ hp] at n2 n4
        constructor
        · intro h'
          have : m < k := by
            have : (m : ℝ) * pi < k * pi := by linarith
            exact_mod_cast lt_of_mul_lt_mul_right this hp.le
          have : ((m : ℝ) + 1) * pi ≤ k * pi := mul_le_mul_of_nonneg_right (by exact_mod_cast this) hp.le
          linarith
        · intro h'
          have : k < m + 1 := by
            have : (k : ℝ) * pi < ((m : ℝ) + 1) * pi := by linarith
            exact_mod_cast lt_of_mul_lt_mul_right this hp.le
          have hle : (k : ℝ) * pi ≤ m * pi := mul_le_mul_of_nonneg_right (by exact_mod_cast (by omega : k ≤ m)) hp.le
          have hne : Θ E x - Φ E x ≠ k * pi := fun he => ns x hx (by rw [he]; exact Real.sin_int_mul_pi k)
          exact lt_of_le_of_ne (by linarith) (Ne.symm hne)
    refine ⟨fun k => ?_, ?_⟩
    · obtain ⟨r1, r2⟩ := rescale_diff (α := Θ E x) (β := Φ E x) s0 k
      exact ⟨fun h' => r1.mpr ((cmp k).1 h'), fun h' => r2.mpr ((cmp k).2 h')⟩
    · intro k η hη
      have hη0 : 0 ≤ η := (abs_nonneg _).trans hη
      obtain ⟨ρ, e1, e2⟩ := wronsk_angle ((ContAngle.rescale s0 y4).angle x hx) ((ContAngle.rescale s0 z4).angle x hx)
      obtain ⟨ρ', e3, e4⟩ := wronsk_angle (y4.angle b mb) (z4.angle b mb)
      rw [wr x hx] at e1
      rw [z5, one_mul] at e3
      rw [one_mul, one_mul] at e4
      set ny := sz (y E b, dy E b) with hny
      set nz := sz (z E b, dz E b) with hnz
      have ny0 : 0 < ny := ok_nonzero hM h hE y1 ma mb (by rw [y2, y3]; exact hL)
      have nz0 : 0 < nz := ok_nonzero hM h hE z1 mb mb (by rw [z2, z3]; exact hR)
      have g1 : sz (y E x, dy E x) ≤ G M * (G M * ny) := (h.growth hM (by linarith) y1 hx).1.trans (mul_le_mul_of_nonneg_left (h.growth hM (by linarith) y1 mb).2 hG0.le)
      have g2 : sz (z E x, dz E x) ≤ G M * (G M * nz) := (h.growth hM (by linarith) z1 hx).1.trans (mul_le_mul_of_nonneg_left (h.growth hM (by linarith) z1 mb).2 hG0.le)
      have scale : ∀ u v n : ℝ, sz (u, v) ≤ G M * (G M * n) → (sc * u) ^ 2 + v ^ 2 ≤ 6 * M * (G M ^ 2 * n) ^ 2 := by
        intro u v n hn
        have q1 := (sz_sq_le (u, v)).2
        have q2 := pow_le_pow_left₀ (sz_nonneg _) hn 2
        have q3 : v ^ 2 ≤ sc ^ 2 * v ^ 2 := le_mul_of_one_le_left (sq_nonneg _) (one_le_pow₀ hsc)
        have q4 : sc ^ 2 * (u ^ 2 + v ^ 2) ≤ 3 * M * (2 * (G M ^ 2 * n) ^ 2) := by
          refine mul_le_mul hsc2 ?_ (by positivity) (by positivity)
          have : (G M * (G M * n)) ^ 2 = (G M ^ 2 * n) ^ 2 := by ring
          dsimp only at q1
          linarith
        rw [mul_pow]
        linarith
      have ub : |ρ| ≤ 6 * M * G M ^ 4 * (ny * nz) := by
        apply le_of_sq_le_sq _ (by positivity)
        rw [sq_abs, e2]
        refine (mul_le_mul (scale _ _ _ g1) (scale _ _ _ g2) (by positivity) (by positivity)).trans (le_of_eq ?_)
        ring
      have lb : ny * nz ≤ |ρ'| := by
        apply le_of_sq_le_sq _ (abs_nonneg _)
        rw [sq_abs, e4, mul_pow]
        exact mul_le_mul (sz_sq_le (y E b, dy E b)).1 (sz_sq_le (z E b, dz E b)).1 (by positivity) (by positivity)
      have sx : |Real.sin (rescale (Θ E x) sc - rescale (Φ E x) sc)| ≤ η := by
        have : |Real.sin (rescale (Θ E x) sc - rescale (Φ E x) sc)| = |Real.sin (rescale (Θ E x) sc - rescale (Φ E x) sc - k * pi)| := by
          rw [Real.sin_sub_int_mul_pi, abs_mul, abs_zpow]; simp
        rw [this]
        exact Real.abs_sin_le_abs.trans hη
      have w1 : |w| ≤ 6 * M * G M ^ 4 * (ny * nz) * η := by
        have q1 : |ρ| * |Real.sin (rescale (Θ E x) sc - rescale (Φ E x) sc)| = sc * |w| := by
          rw [← abs_mul, e1, abs_mul, abs_of_pos s0]
        have q2 : |w| ≤ sc * |w| := le_mul_of_one_le_left (abs_nonneg _) hsc
        have q3 := mul_le_mul ub sx (abs_nonneg _) (by positivity)
        linarith
      have w2 : |ρ'| * |Real.sin (Θ E b - β)| = |w| := by rw [← abs_mul, e3]
      have w3 : ny * nz * |Real.sin (Θ E b - β)| ≤ |ρ'| * |Real.sin (Θ E b - β)| := mul_le_mul_of_nonneg_right lb (abs_nonneg _)
      have w4 : |Real.sin (Θ E b - β)| ≤ 6 * M * G M ^ 4 * η := by
        have : ny * nz * |Real.sin (Θ E b - β)| ≤ ny * nz * (6 * M * G M ^ 4 * η) := by linarith
        exact le_of_mul_le_mul_left this (by positivity)
      obtain ⟨k', hk'⟩ := sin_small w4
      refine ⟨k', hk'.trans ?_⟩
      have : 0 ≤ C1 * η := by positivity
      rw [add_mul, hC2]
      linarith

end Verif.Solver
