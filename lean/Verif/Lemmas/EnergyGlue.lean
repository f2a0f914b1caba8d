import Verif.Lemmas.EnergyDMesh
import Verif.Lemmas.MeshOde

/-!
# The energy derivative on a mesh
-/
namespace Verif.Solver
open Verif.Mesh Verif.YT Verif.CalcT Verif.Propag Verif.Formulas Verif.Legendre Verif.Spec

theorem EnergyMesh.tail {W : Sec ℝ → ℝ → ℝ} {E : ℝ} {s : Sec ℝ} {l : List (Sec ℝ)} {y z dz : ℝ → ℝ} (h : EnergyMesh W E (s :: l) y z dz) : EnergyMesh W E l y z dz :=
  fun t ht => h t (List.mem_cons_of_mem _ ht)

theorem EnergyOn.congr {V : ℝ → ℝ} {E a b : ℝ} {g y dy z dz : ℝ → ℝ} (h : EnergyOn V E a b g y dy) (h1 : ∀ x ∈ Set.Icc a b, z x = y x)
    (h2 : ∀ x ∈ Set.Icc a b, dz x = dy x) : EnergyOn V E a b g z dz := by
  constructor
  · intro x hx
    rw [h2 x hx]
    exact (h.d1 x hx).congr h1 (h1 x hx)
  · intro x hx
    rw [h1 x hx]
    exact (h.d2 x hx).congr h2 (h2 x hx)

/-- Existence of the energy derivative on a mesh. -/
theorem mesh_energy_exists {K : ℝ} {W : Sec ℝ → ℝ → ℝ} {E : ℝ} {y dy : ℝ → ℝ} : ∀ {l : List (Sec ℝ)} {a b : ℝ}, OkMesh K W E a l b → SolvesMesh W E l y dy → ∀ u : ℝ × ℝ,
    ∃ z dz, EnergyMesh W E l y z dz ∧ z a = u.1 ∧ dz a = u.2
  | [], a, b, _, _, u => ⟨fun _ => u.1, fun _ => u.2, by intro s hs; simp at hs, rfl, rfl⟩
  | s :: l, a, b, h, hy, u => by
    have e := h.chn.1
    have hp := h.pos s (by simp)
    obtain ⟨y1, dy1, h1, i1, i2⟩ := exists_energy (E := E) (h.cont s (by simp)) (x := s.min) ⟨le_rfl, hp.le⟩ (hy s (by simp)) u
    obtain ⟨y2, dy2, h2, j1, j2⟩ := mesh_energy_exists h.tail hy.tail (y1 s.max, dy1 s.max)
    refine ⟨fun x => if x ≤ s.max then y1 x else y2 x, fun x => if x ≤ s.max then dy1 x else dy2 x, ?_, ?_, ?_⟩
    · intro t ht
      rcases List.mem_cons.mp ht with rfl | ht
      · exact EnergyOn.congr h1 (fun x hx => if_pos hx.2) (fun x hx => if_pos hx.2)
      · have r := (chn_range h.tail.chn h.tail.pos).2 t ht
        refine EnergyOn.congr (h2 t ht) (fun x hx => ?_) (fun x hx => ?_)
        · have : s.max ≤ x := r.1.trans hx.1
          rcases this.eq_or_lt with q | q
          · subst q; simp [j1]
          · exact if_neg (not_le.mpr q)
        · have : s.max ≤ x := r.1.trans hx.1
          rcases this.eq_or_lt with q | q
          · subst q; simp [j2]
          · exact if_neg (not_le.mpr q)
    · rw [← e]; simp [hp.le, i1]
    · rw [← e]; simp [hp.le, i2]

theorem EnergyMesh.add_solution {W : Sec ℝ → ℝ → ℝ} {E : ℝ} {l : List (Sec ℝ)} {y z dz u du : ℝ → ℝ} (h : EnergyMesh W E l y z dz) (hu : SolvesMesh W E l u du) (c : ℝ) :
    EnergyMesh W E l y (fun x => z x + c * u x) (fun x => dz x + c * du x) := fun s hs => (h s hs).add_solution (hu s hs) c

/-- … with given values at any point. -/
theorem mesh_energy_exists_at {K : ℝ} {W : Sec ℝ → ℝ → ℝ} {E : ℝ} {y dy : ℝ → ℝ} {l : List (Sec ℝ)} {a b : ℝ} (h : OkMesh K W E a l b) (hy : SolvesMesh W E l y dy)
    {x : ℝ} (hx : x ∈ Set.Icc a b) (u : ℝ × ℝ) : ∃ z dz, EnergyMesh W E l y z dz ∧ z x = u.1 ∧ dz x = u.2 := by
  obtain ⟨z, dz, hz, -, -⟩ := mesh_energy_exists h hy (0, 0)
  obtain ⟨s, ds, hs, s1, s2⟩ := mesh_exists_at h hx (u.1 - z x, u.2 - dz x)
  refine ⟨_, _, EnergyMesh.add_solution hz hs 1, ?_, ?_⟩
  · rw [s1]; ring
  · rw [s2]; ring

/-- Growth with a source, to the right from the left end. -/
theorem mesh_source_left {K B : ℝ} (hK : 1 ≤ K) (hB : 0 ≤ B) {W : Sec ℝ → ℝ → ℝ} {E : ℝ} {g z dz : ℝ → ℝ} : ∀ {l : List (Sec ℝ)} {a b : ℝ}, OkMesh K W E a l b →
    EnergyMesh W E l g z dz → (∀ x ∈ Set.Icc a b, |g x| ≤ B) → ∀ x ∈ Set.Icc a b, sz (z x, dz x) ≤ Real.exp (K * (x - a)) * (sz (z a, dz a) + B * (x - a))
  | [], a, b, h, _, _, x, hx => by
    have := h.chn
    simp only [Chn] at this
    have : x = a := by linarith [hx.1, hx.2]
    rw [this]; simp
  | s :: l, a, b, h, hs, hg, x, hx => by
    have e := h.chn.1
    subst e
    have hp := h.pos s (by simp)
    have hb := (chn_range h.tail.chn h.tail.pos).1
    have one : ∀ t ∈ Set.Icc s.min s.max, sz (z t, dz t) ≤ Real.exp (K * (t - s.min)) * (sz (z s.min, dz s.min) + B * (t - s.min)) := by
      intro t ht
      have := energy_bound_right hK (h.cont s (by simp)) (h.le s (by simp)) (hs s (by simp)) hB (fun x hx => hg x ⟨hx.1, hx.2.trans hb⟩) (x := s.min) (x' := t) ⟨le_rfl, hp.le⟩ ht ht.1
      rwa [abs_of_nonneg (by linarith [ht.1])] at this
    rcases le_total x s.max with q | q
    · exact one x ⟨hx.1, q⟩
    · have h1 := mesh_source_left hK hB h.tail (EnergyMesh.tail hs) (fun t ht => hg t ⟨hp.le.trans ht.1, ht.2⟩) x ⟨q, hx.2⟩
      have h2 := one s.max ⟨hp.le, le_rfl⟩
      have e1 : Real.exp (K * (x - s.min)) = Real.exp (K * (x - s.max)) * Real.exp (K * (s.max - s.min)) := by rw [← Real.exp_add]; congr 1; ring
      have x0 := Real.exp_pos (K * (x - s.max))
      have x1 : 1 ≤ Real.exp (K * (s.max - s.min)) := Real.one_le_exp (mul_nonneg (by linarith) (by linarith))
      have h3 : B * (x - s.max) ≤ Real.exp (K * (s.max - s.min)) * (B * (x - s.max)) := le_mul_of_one_le_left (mul_nonneg hB (by linarith)) x1
      refine h1.trans ?_
      rw [e1, mul_assoc]
      refine mul_le_mul_of_nonneg_left ?_ x0.le
      have e2 : Real.exp (K * (s.max - s.min)) * (sz (z s.min, dz s.min) + B * (x - s.min)) =
        Real.exp (K * (s.max - s.min)) * (sz (z s.min, dz s.min) + B * (s.max - s.min)) + Real.exp (K * (s.max - s.min)) * (B * (x - s.max)) := by ring
      linarith

/-- Growth with a source from any point where the value vanishes. -/
theorem mesh_source {K B : ℝ} (hK : 1 ≤ K) (hB : 0 ≤ B) {W : Sec ℝ → ℝ → ℝ} {E : ℝ} {g z dz : ℝ → ℝ} {l : List (Sec ℝ)} {a b : ℝ} (h : OkMesh K W E a l b)
    (hz : EnergyMesh W E l g z dz) (hg : ∀ x ∈ Set.Icc a b, |g x| ≤ B) {x0 x : ℝ} (h0 : x0 ∈ Set.Icc a b) (hx : x ∈ Set.Icc a b) (z0 : z x0 = 0) (dz0 : dz x0 = 0) :
    sz (z x, dz x) ≤ 2 * Real.exp (K * (b - a)) ^ 3 * (B * (b - a)) := by
  have hab : a ≤ b := h0.1.trans h0.2
  obtain ⟨u, du, hu, u1, u2⟩ := mesh_exists h (z a, dz a)
  have hd := EnergyMesh.add_solution hz hu (-1)
  set Q := Real.exp (K * (b - a)) * (B * (b - a)) with hQ
  have hQ0 : 0 ≤ Q := mul_nonneg (Real.exp_pos _).le (mul_nonneg hB (by linarith))
  have ex : ∀ t ∈ Set.Icc a b, Real.exp (K * (t - a)) ≤ Real.exp (K * (b - a)) := fun t ht =>
    Real.exp_le_exp.mpr (mul_le_mul_of_nonneg_left (by linarith [ht.2]) (by linarith))
  have k : ∀ t ∈ Set.Icc a b, sz (z t + -1 * u t, dz t + -1 * du t) ≤ Q := by
    intro t ht
    have := mesh_source_left hK hB h hd hg t ht
    have e0 : sz (z a + -1 * u a, dz a + -1 * du a) = 0 := by rw [u1, u2]; simp [sz]
    rw [e0, zero_add] at this
    exact this.trans (mul_le_mul (ex t ht) (mul_le_mul_of_nonneg_left (by linarith [ht.2]) hB) (mul_nonneg hB (by linarith [ht.1])) (Real.exp_pos _).le)
  have k0 : sz (u x0, du x0) ≤ Q := by
    have := k x0 h0
    rw [z0, dz0] at this
    simpa [sz] using this
  have g0 := (mesh_growth hK h hu x0 h0).2
  have g1 := (mesh_growth hK h hu x hx).1
  set ee := Real.exp (K * (b - a)) with hee
  have ee1 : 1 ≤ ee := Real.one_le_exp (mul_nonneg (by linarith) (by linarith))
  have g0' : sz (u a, du a) ≤ ee * Q := g0.trans (mul_le_mul (ex x0 h0) k0 (sz_nonneg _) (by linarith))
  have g1' : sz (u x, du x) ≤ ee * (ee * Q) := g1.trans (mul_le_mul (ex x hx) g0' (sz_nonneg _) (by linarith))
  have f := sz_le_add (z x, dz x) (u x, du x)
  have f2 : (z x, dz x) - (u x, du x) = (z x + -1 * u x, dz x + -1 * du x) := by ext <;> simp <;> ring
  rw [f2] at f
  have f3 := k x hx
  have f4 : Q ≤ ee * (ee * Q) := by rw [← mul_assoc]; exact le_mul_of_one_le_left hQ0 (one_le_mul_of_one_le_of_one_le ee1 ee1)
  have f5 : 2 * ee ^ 3 * (B * (b - a)) = 2 * (ee * (ee * Q)) := by rw [hQ]; ring
  rw [f5]
  linarith

/-- The difference of two energies solves the equation with a source. -/
theorem diff_energy {V : ℝ → ℝ} {E F a b : ℝ} {y dy f df : ℝ → ℝ} (hy : SolvesOn V E a b y dy) (hf : SolvesOn V F a b f df) :
    EnergyOn V E a b (fun x => (F - E) * f x) (fun x => f x - y x) (fun x => df x - dy x) := by
  constructor
  · intro t ht
    exact (hf.d1 t ht).sub (hy.d1 t ht)
  · intro t ht
    exact ((hf.d2 t ht).sub (hy.d2 t ht)).congr_deriv (by ring)

theorem second_energy {V : ℝ → ℝ} {E F a b : ℝ} {y dy f df z dz : ℝ → ℝ} (hy : SolvesOn V E a b y dy) (hf : SolvesOn V F a b f df) (hz : EnergyOn V E a b y z dz) :
    EnergyOn V E a b (fun x => (F - E) * (f x - y x)) (fun x => f x - y x - (F - E) * z x) (fun x => df x - dy x - (F - E) * dz x) := by
  constructor
  · intro t ht
    exact ((hf.d1 t ht).sub (hy.d1 t ht)).sub ((hz.d1 t ht).const_mul (F - E))
  · intro t ht
    exact (((hf.d2 t ht).sub (hy.d2 t ht)).sub ((hz.d2 t ht).const_mul (F - E))).congr_deriv (by ring)

/-- **Second order**: solutions at a nearby energy. -/
theorem mesh_second {K : ℝ} (hK : 1 ≤ K) {W : Sec ℝ → ℝ → ℝ} {E F : ℝ} {y dy f df z dz : ℝ → ℝ} {l : List (Sec ℝ)} {a b : ℝ} (h : OkMesh K W E a l b) (h' : OkMesh K W F a l b)
    (hy : SolvesMesh W E l y dy) (hf : SolvesMesh W F l f df) (hz : EnergyMesh W E l y z dz) {x0 x : ℝ} (h0 : x0 ∈ Set.Icc a b) (hx : x ∈ Set.Icc a b)
    (i1 : f x0 = y x0) (i2 : df x0 = dy x0) (z0 : z x0 = 0) (dz0 : dz x0 = 0) :
    sz (f x - y x, df x - dy x) ≤ 2 * Real.exp (K * (b - a)) ^ 5 * (b - a) * |F - E| * sz (y x0, dy x0) ∧
    sz (f x - y x - (F - E) * z x, df x - dy x - (F - E) * dz x) ≤ 4 * Real.exp (K * (b - a)) ^ 8 * (b - a) ^ 2 * (F - E) ^ 2 * sz (y x0, dy x0) := by
  have hab : a ≤ b := h0.1.trans h0.2
  set ee := Real.exp (K * (b - a)) with hee
  have ee1 : 1 ≤ ee := Real.one_le_exp (mul_nonneg (by linarith) (by linarith))
  have ex : ∀ t ∈ Set.Icc a b, Real.exp (K * (t - a)) ≤ ee := fun t ht =>
    Real.exp_le_exp.mpr (mul_le_mul_of_nonneg_left (by linarith [ht.2]) (by linarith))
  have s0 := sz_nonneg (y x0, dy x0)
  set S := sz (y x0, dy x0) with hS
  have bf : ∀ t ∈ Set.Icc a b, |f t| ≤ ee ^ 2 * S := by
    intro t ht
    have g0 := (mesh_growth hK h' hf x0 h0).2
    have g1 := (mesh_growth hK h' hf t ht).1
    rw [i1, i2] at g0
    have g0' : sz (f a, df a) ≤ ee * S := g0.trans (mul_le_mul_of_nonneg_right (ex x0 h0) s0)
    have g1' := g1.trans (mul_le_mul (ex t ht) g0' (sz_nonneg _) (by linarith))
    exact (le_sz1 (f t, df t)).trans (g1'.trans (le_of_eq (by ring)))
  have d0 := abs_nonneg (F - E)
  have first : ∀ t ∈ Set.Icc a b, sz (f t - y t, df t - dy t) ≤ 2 * ee ^ 5 * (b - a) * |F - E| * S := by
    intro t ht
    have := mesh_source hK (B := |F - E| * (ee ^ 2 * S)) (by positivity) h (fun s hs => diff_energy (hy s hs) (hf s hs))
      (fun t ht => by rw [abs_mul]; exact mul_le_mul_of_nonneg_left (bf t ht) d0) h0 ht (by rw [i1, sub_self]) (by rw [i2, sub_self])
    exact this.trans (le_of_eq (by rw [← hee]; ring))
  refine ⟨first x hx, ?_⟩
  have := mesh_source hK (B := |F - E| * (2 * ee ^ 5 * (b - a) * |F - E| * S)) (by have : 0 ≤ b - a := by linarith
                                                                                   positivity) h
    (fun s hs => second_energy (hy s hs) (hf s hs) (hz s hs))
      (fun t ht => by rw [abs_mul]; exact mul_le_mul_of_nonneg_left ((le_sz1 (f t - y t, df t - dy t)).trans (first t ht)) d0) h0 hx
      (by rw [i1, sub_self, z0]; ring) (by rw [i2, sub_self, dz0]; ring)
  refine this.trans (le_of_eq ?_)
  rw [← hee, ← sq_abs (F - E)]; ring

/-- a quadratic remainder gives a derivative -/
theorem hasDeriv_of_quadratic {f : ℝ → ℝ} {E d C ρ : ℝ} (hρ : 0 < ρ) (h : ∀ F, |F - E| ≤ ρ → |f F - f E - (F - E) * d| ≤ C * (F - E) ^ 2) : HasDerivAt f d E := by
  rw [hasDerivAt_iff_isLittleO]
  have h1 : (fun F => f F - f E - (F - E) • d) =O[nhds E] fun F => (F - E) ^ 2 := by
    refine Asymptotics.IsBigO.of_bound C ?_
    filter_upwards [Metric.closedBall_mem_nhds E hρ] with F hF
    rw [Metric.mem_closedBall, Real.dist_eq] at hF
    simpa [abs_of_nonneg (sq_nonneg (F - E))] using h F hF
  have h2 : (fun F : ℝ => (F - E) ^ 2) =o[nhds E] fun F => F - E := by simpa using Asymptotics.isLittleO_pow_sub_sub E one_lt_two
  exact h1.trans_isLittleO h2

/-- The energy derivative is the derivative with respect to the energy. -/
theorem mesh_hasDeriv {M : ℝ} (hM : 1 ≤ M) {W : Sec ℝ → ℝ → ℝ} {E : ℝ} (hE : |E| ≤ M) {f df : ℝ → ℝ → ℝ} {z dz : ℝ → ℝ} {l : List (Sec ℝ)} {a b : ℝ}
    (h : ∀ F, |F| ≤ M + 1 → OkMesh (3 * M) W F a l b) {x0 x : ℝ} {u : ℝ × ℝ}
    (hf : ∀ F, |F| ≤ M + 1 → SolvesMesh W F l (f F) (df F) ∧ f F x0 = u.1 ∧ df F x0 = u.2) (hz : EnergyMesh W E l (f E) z dz) (h0 : x0 ∈ Set.Icc a b) (hx : x ∈ Set.Icc a b)
    (z0 : z x0 = 0) (dz0 : dz x0 = 0) : HasDerivAt (fun F => f F x) (z x) E ∧ HasDerivAt (fun F => df F x) (dz x) E := by
  have hE1 : |E| ≤ M + 1 := by linarith
  obtain ⟨f1, f2, f3⟩ := hf E hE1
  have key : ∀ F, |F - E| ≤ 1 → sz (f F x - f E x - (F - E) * z x, df F x - df E x - (F - E) * dz x) ≤
      4 * Real.exp (3 * M * (b - a)) ^ 8 * (b - a) ^ 2 * sz u * (F - E) ^ 2 := by
    intro F hF
    have hF1 : |F| ≤ M + 1 := by
      have : F = E + (F - E) := by ring
      rw [this]; exact (abs_add_le _ _).trans (by linarith)
    obtain ⟨g1, g2, g3⟩ := hf F hF1
    have := (mesh_second (by linarith) (h E hE1) (h F hF1) f1 g1 hz h0 hx (by rw [g2, f2]) (by rw [g3, f3]) z0 dz0).2
    rw [f2, f3] at this
    exact this.trans (le_of_eq (by ring))
  exact ⟨hasDeriv_of_quadratic one_pos (fun F hF => (le_sz1 (_, _)).trans (key F hF)), hasDeriv_of_quadratic one_pos (fun F hF => (le_sz2 (_, _)).trans (key F hF))⟩

/-- Every mesh of bounded potentials is fit for every energy. -/
theorem okMesh_all {eps M H : ℝ} {W : Sec ℝ → ℝ → ℝ} {dmin dmax : ℝ} {secs : List (Sec ℝ)} (h : FitMesh eps M H W dmin dmax secs) (hM : 1 ≤ M) {F : ℝ} (hF : |F| ≤ M + 1) :
    OkMesh (3 * M) W F dmin secs dmax := by
  have h1 := fit_okMesh h (E := 0) (by simp; linarith)
  refine ⟨h1.chn, h1.pos, h1.cont, fun s hs x hx => ?_⟩
  have h2 := (h.smooth s hs).bound hx
  have h3 := abs_sub (W s x) F
  linarith

theorem okMesh_any {eps M H : ℝ} {W : Sec ℝ → ℝ → ℝ} {dmin dmax : ℝ} {secs : List (Sec ℝ)} (h : FitMesh eps M H W dmin dmax secs) (hM : 1 ≤ M) (F : ℝ) :
    OkMesh (M + |F|) W F dmin secs dmax := by
  have h1 := fit_okMesh h (E := 0) (by simp; linarith)
  refine ⟨h1.chn, h1.pos, h1.cont, fun s hs x hx => ?_⟩
  have h2 := (h.smooth s hs).bound hx
  have h3 := abs_sub (W s x) F
  linarith

/-- **The derivative with respect to the energy** of a family of solutions whose values at `x0` depend on the energy. -/
theorem family_deriv {eps M H : ℝ} (hM : 1 ≤ M) {W : Sec ℝ → ℝ → ℝ} {dmin dmax : ℝ} {secs : List (Sec ℝ)} (h : FitMesh eps M H W dmin dmax secs) {E : ℝ} (hE : |E| ≤ M)
    {f df : ℝ → ℝ → ℝ} (hf : ∀ F, SolvesMesh W F secs (f F) (df F)) {x0 : ℝ} (h0 : x0 ∈ Set.Icc dmin dmax) {e de : ℝ}
    (d1 : HasDerivAt (fun F => f F x0) e E) (d2 : HasDerivAt (fun F => df F x0) de E) :
    ∃ z dz, EnergyMesh W E secs (f E) z dz ∧ z x0 = e ∧ dz x0 = de ∧
      ∀ x ∈ Set.Icc dmin dmax, HasDerivAt (fun F => f F x) (z x) E ∧ HasDerivAt (fun F => df F x) (dz x) E := by
  have fam : ∀ u : ℝ × ℝ, ∃ g dg : ℝ → ℝ → ℝ, ∀ F, SolvesMesh W F secs (g F) (dg F) ∧ g F x0 = u.1 ∧ dg F x0 = u.2 := by
    intro u
    have : ∀ F : ℝ, ∃ p : (ℝ → ℝ) × (ℝ → ℝ), SolvesMesh W F secs p.1 p.2 ∧ p.1 x0 = u.1 ∧ p.2 x0 = u.2 := fun F => by
      obtain ⟨y, dy, h1, h2, h3⟩ := mesh_exists_at (okMesh_any h hM F) h0 u
      exact ⟨(y, dy), h1, h2, h3⟩
    choose p hp using this
    exact ⟨fun F => (p F).1, fun F => (p F).2, hp⟩
  obtain ⟨φ, dφ, hφ⟩ := fam (1, 0)
  obtain ⟨ψ, dψ, hψ⟩ := fam (0, 1)
  have hE1 : |E| ≤ M + 1 := by linarith
  obtain ⟨zφ, dzφ, eφ, a1, a2⟩ := mesh_energy_exists_at (okMesh_all h hM hE1) (hφ E).1 h0 (0, 0)
  obtain ⟨zψ, dzψ, eψ, b1, b2⟩ := mesh_energy_exists_at (okMesh_all h hM hE1) (hψ E).1 h0 (0, 0)
  have dφ' := fun x hx => mesh_hasDeriv hM hE (fun F hF => okMesh_all h hM hF) (fun F _ => hφ F) eφ h0 (x := x) hx a1 a2
  have dψ' := fun x hx => mesh_hasDeriv hM hE (fun F hF => okMesh_all h hM hF) (fun F _ => hψ F) eψ h0 (x := x) hx b1 b2
  have rep : ∀ F, ∀ x ∈ Set.Icc dmin dmax, f F x = f F x0 * φ F x + df F x0 * ψ F x ∧ df F x = f F x0 * dφ F x + df F x0 * dψ F x := by
    intro F x hx
    have hK : 1 ≤ M + |F| := by have := abs_nonneg F; linarith
    have c := (hf F).comb ((hφ F).1.comb (hψ F).1 (f F x0) (df F x0)) 1 (-1)
    have z := mesh_zero hK (okMesh_any h hM F) c h0 (by simp only [(hφ F).2.1, (hφ F).2.2, (hψ F).2.1, (hψ F).2.2]; simp [sz]) hx
    constructor <;> linarith [z.1, z.2]
  have e1 : ∀ s ∈ secs, ∀ x ∈ Set.Icc s.min s.max, x ∈ Set.Icc dmin dmax := fun s hs x hx => by
    have r := (chn_range (okMesh_all h hM hE1).chn (okMesh_all h hM hE1).pos).2 s hs
    exact ⟨r.1.trans hx.1, hx.2.trans r.2⟩
  refine ⟨fun x => (f E x0 * zφ x + df E x0 * zψ x) + 1 * (e * φ E x + de * ψ E x), fun x => (f E x0 * dzφ x + df E x0 * dzψ x) + 1 * (e * dφ E x + de * dψ E x), ?_, ?_, ?_, ?_⟩
  · intro s hs
    have k := EnergyOn.add_solution (EnergyOn.comb (eφ s hs) (eψ s hs) (f E x0) (df E x0)) (((hφ E).1 s hs).comb ((hψ E).1 s hs) e de) 1
    refine ⟨k.d1, fun x hx => ?_⟩
    refine (k.d2 x hx).congr_deriv ?_
    rw [(rep E x (e1 s hs x hx)).1]
  · simp only [a1, b1, (hφ E).2.1, (hψ E).2.1]; ring
  · simp only [a2, b2, (hφ E).2.2, (hψ E).2.2]; ring
  · intro x hx
    constructor
    · have k := (d1.mul (dφ' x hx).1).add (d2.mul (dψ' x hx).1)
      have e2 : (fun F => f F x) = fun F => f F x0 * φ F x + df F x0 * ψ F x := funext fun F => (rep F x hx).1
      rw [e2]
      exact k.congr_deriv (by ring)
    · have k := (d1.mul (dφ' x hx).2).add (d2.mul (dψ' x hx).2)
      have e2 : (fun F => df F x) = fun F => f F x0 * dφ F x + df F x0 * dψ F x := funext fun F => (rep F x hx).2
      rw [e2]
      exact k.congr_deriv (by ring)

end Verif.Solver
