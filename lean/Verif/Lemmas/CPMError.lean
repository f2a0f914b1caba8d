import Verif.Lemmas.CPM
import Verif.Lemmas.Ode

/-!
# Local error of a certified pair of tables
-/
namespace Verif.PL
open Verif.Formulas Verif.Legendre Verif.Eta
open scoped BigOperators

section
variable {nV N n : ℕ} {κ : ℤ} {a c : ℕ → PL}

/-- constant for the first relation -/
noncomputable def B1 (N n : ℕ) (a c : ℕ → PL) (M : ℝ) : ℝ :=
  ∑ i ∈ Finset.range n, bndAll M ((rel1 a c i).map (high N)) * Real.exp M
/-- constant for the second relation -/
noncomputable def B2 (nV N n : ℕ) (a c : ℕ → PL) (M : ℝ) : ℝ :=
  ∑ i ∈ Finset.range n, (bndAll M ((rel2 a c i ++ dVmul nV low N (negDD a i)).map (high N)) +
    bndAll M (dVmul nV high N (negDD a i))) * Real.exp M

theorem B1_nonneg {M : ℝ} (hM : 0 ≤ M) : 0 ≤ B1 N n a c M :=
  Finset.sum_nonneg (fun _ _ => mul_nonneg (bndAll_nonneg hM _) (Real.exp_pos _).le)
theorem B2_nonneg {M : ℝ} (hM : 0 ≤ M) : 0 ≤ B2 nV N n a c M :=
  Finset.sum_nonneg (fun _ _ => mul_nonneg (add_nonneg (bndAll_nonneg hM _) (bndAll_nonneg hM _)) (Real.exp_pos _).le)

theorem abs_etaZ_le {M Z0 δ : ℝ} (hZ : |Z0| ≤ M) (h0 : 0 ≤ δ) (h1 : δ ≤ 1) (i : ℕ) :
    |eta i (Z0 * δ ^ 2)| ≤ Real.exp M := by
  refine (abs_eta_le i _).trans (Real.exp_le_exp.mpr ?_)
  rw [abs_mul, abs_of_nonneg (by positivity : 0 ≤ δ ^ 2)]
  have : δ ^ 2 ≤ 1 := pow_le_one₀ h0 h1
  have := abs_nonneg Z0
  nlinarith

theorem mem_dVmul {f : ℕ → PL → PL} {l m : PL} (hm : m ∈ dVmul nV f N l) :
    ∃ k j, m = mulV (k + 1) j (poly (k + 1) j) (f (N - (k + 1)) l) := by
  unfold dVmul at hm
  obtain ⟨k, _, hm⟩ := List.mem_flatMap.mp hm
  obtain ⟨j, _, rfl⟩ := List.mem_map.mp hm
  exact ⟨k, j, rfl⟩

theorem bound1_pos (C : Cert nV N n κ a c) (hN : 1 ≤ N) {v : ℕ → ℝ} {M : ℝ} (hM : 1 ≤ M) (hv : ∀ k, 1 ≤ k → |v k| ≤ M)
    {h Z0 δ : ℝ} (h0 : 0 < h) (h1 : h ≤ 1) (hZ : |Z0| ≤ M) (d0 : 0 < δ) (d1 : δ ≤ h) :
    |Wf n κ c v h Z0 δ - Ud n a v h Z0 δ| ≤ B1 N n a c M * h ^ (N - 1) := by
  have s0 : 0 ≤ δ / h := by positivity
  have s1 : δ / h ≤ 1 := (div_le_one h0).mpr d1
  have key := resid1 C v h0.ne' Z0 δ
  have hs : ∀ i ∈ Finset.range n, |evalAll v h (δ / h) (rel1 a c i) * eta i (Z0 * δ ^ 2)| ≤
      (bndAll M ((rel1 a c i).map (high N)) * Real.exp M) * (h ^ (N - 1) * δ) := by
    intro i hi
    rw [Finset.mem_range] at hi
    rw [eval_of_cancels v h (δ / h) (C.r1 i hi), abs_mul]
    have e1 := evalAll_bound hM hv h0.le h1 s0 s1 (N := N) (p := 1) ((rel1 a c i).map (high N))
      (fun l hl => by obtain ⟨l, _, rfl⟩ := List.mem_map.mp hl; exact high_ord N l)
      (fun l hl => by obtain ⟨l, hl', rfl⟩ := List.mem_map.mp hl; exact (C.g1 i hi l hl').high N)
    have e2 := abs_etaZ_le hZ d0.le (d1.trans h1) i
    have e3 : h ^ N * (δ / h) ^ 1 = h ^ (N - 1) * δ := by
      obtain ⟨p, rfl⟩ : ∃ p, N = p + 1 := ⟨N - 1, by omega⟩
      rw [Nat.add_sub_cancel, pow_succ]; field_simp
    rw [e3] at e1
    calc _ ≤ (bndAll M ((rel1 a c i).map (high N)) * (h ^ (N - 1) * δ)) * Real.exp M :=
          mul_le_mul e1 e2 (abs_nonneg _) (mul_nonneg (bndAll_nonneg (by linarith) _) (by positivity))
      _ = _ := by ring
  have h3 : |δ * (Wf n κ c v h Z0 δ - Ud n a v h Z0 δ)| ≤ B1 N n a c M * (h ^ (N - 1) * δ) := by
    rw [key, B1, Finset.sum_mul]
    exact (Finset.abs_sum_le_sum_abs _ _).trans (Finset.sum_le_sum hs)
  rw [abs_mul, abs_of_pos d0] at h3
  have h4 : δ * |Wf n κ c v h Z0 δ - Ud n a v h Z0 δ| ≤ δ * (B1 N n a c M * h ^ (N - 1)) := by linarith
  exact le_of_mul_le_mul_left h4 d0

theorem bound2_pos (C : Cert nV N n κ a c) (hN : 2 ≤ N) {v : ℕ → ℝ} {M : ℝ} (hM : 1 ≤ M) (hv : ∀ k, 1 ≤ k → |v k| ≤ M)
    {h Z0 δ : ℝ} (h0 : 0 < h) (h1 : h ≤ 1) (hZ : |Z0| ≤ M) (d0 : 0 < δ) (d1 : δ ≤ h) :
    |Wd n κ c v h Z0 δ - (Z0 + dV nV v h δ) * Uf n a v h Z0 δ| ≤ B2 nV N n a c M * h ^ (N - 2) := by
  have s0 : 0 ≤ δ / h := by positivity
  have s1 : δ / h ≤ 1 := (div_le_one h0).mpr d1
  have key := resid2 C v h0.ne' Z0 δ
  have e3 : h ^ N * (δ / h) ^ 2 = h ^ (N - 2) * δ ^ 2 := by
    obtain ⟨p, rfl⟩ : ∃ p, N = p + 2 := ⟨N - 2, by omega⟩
    rw [Nat.add_sub_cancel, pow_add]; field_simp
  have hs : ∀ i ∈ Finset.range n, |(evalAll v h (δ / h) (rel2 a c i ++ dVmul nV low N (negDD a i)) +
        evalAll v h (δ / h) (dVmul nV high N (negDD a i))) * eta i (Z0 * δ ^ 2)| ≤
      ((bndAll M ((rel2 a c i ++ dVmul nV low N (negDD a i)).map (high N)) +
        bndAll M (dVmul nV high N (negDD a i))) * Real.exp M) * (h ^ (N - 2) * δ ^ 2) := by
    intro i hi
    rw [Finset.mem_range] at hi
    rw [eval_of_cancels v h (δ / h) (C.r2 i hi), abs_mul]
    have e1 := evalAll_bound hM hv h0.le h1 s0 s1 (N := N) (p := 2)
      ((rel2 a c i ++ dVmul nV low N (negDD a i)).map (high N))
      (fun l hl => by obtain ⟨l, _, rfl⟩ := List.mem_map.mp hl; exact high_ord N l)
      (fun l hl => by
        obtain ⟨l, hl', rfl⟩ := List.mem_map.mp hl
        refine Good.high ?_ N
        rcases List.mem_append.mp hl' with h' | h'
        · exact C.g2 i hi l h'
        · obtain ⟨k, j, rfl⟩ := mem_dVmul h'
          refine Good.mulV ?_ (by omega) _ _
          exact fun m hm => C.g3 i hi m (List.mem_of_mem_filter hm))
    have e1' := evalAll_bound hM hv h0.le h1 s0 s1 (N := N) (p := 2) (dVmul nV high N (negDD a i))
      (fun l hl => by
        obtain ⟨k, j, rfl⟩ := mem_dVmul hl
        exact mulV_ord (high_ord _ _) _ _)
      (fun l hl => by
        obtain ⟨k, j, rfl⟩ := mem_dVmul hl
        exact Good.mulV ((C.g3 i hi).high _) (by omega) _ _)
    have e2 := abs_etaZ_le hZ d0.le (d1.trans h1) i
    rw [e3] at e1 e1'
    have e4 := (abs_add_le (evalAll v h (δ / h) ((rel2 a c i ++ dVmul nV low N (negDD a i)).map (high N)))
      (evalAll v h (δ / h) (dVmul nV high N (negDD a i)))).trans (add_le_add e1 e1')
    rw [← add_mul] at e4
    calc _ ≤ ((bndAll M ((rel2 a c i ++ dVmul nV low N (negDD a i)).map (high N)) +
        bndAll M (dVmul nV high N (negDD a i))) * (h ^ (N - 2) * δ ^ 2)) * Real.exp M :=
          mul_le_mul e4 e2 (abs_nonneg _)
            (mul_nonneg (add_nonneg (bndAll_nonneg (by linarith) _) (bndAll_nonneg (by linarith) _)) (by positivity))
      _ = _ := by ring
  have h3 : |δ ^ 2 * (Wd n κ c v h Z0 δ - (Z0 + dV nV v h δ) * Uf n a v h Z0 δ)| ≤ B2 nV N n a c M * (h ^ (N - 2) * δ ^ 2) := by
    rw [key, B2, Finset.sum_mul]
    exact (Finset.abs_sum_le_sum_abs _ _).trans (Finset.sum_le_sum hs)
  rw [abs_mul, abs_of_pos (by positivity)] at h3
  have h4 : δ ^ 2 * |Wd n κ c v h Z0 δ - (Z0 + dV nV v h δ) * Uf n a v h Z0 δ| ≤ δ ^ 2 * (B2 nV N n a c M * h ^ (N - 2)) := by
    linarith
  exact le_of_mul_le_mul_left h4 (by positivity)

/-- A bound on `(0, h]` of a continuous function holds on `[0, h]`. -/
theorem bound_at_zero {f : ℝ → ℝ} (hf : Continuous f) {h c : ℝ} (h0 : 0 < h) (hb : ∀ δ, 0 < δ → δ ≤ h → f δ ≤ c) {δ : ℝ}
    (hδ : δ ∈ Set.Icc 0 h) : f δ ≤ c := by
  have hc : IsClosed {x | f x ≤ c} := isClosed_le hf continuous_const
  have hs : Set.Ioc 0 h ⊆ {x | f x ≤ c} := fun x hx => hb x hx.1 hx.2
  have := closure_minimal hs hc
  rw [closure_Ioc h0.ne] at this
  exact this hδ

theorem bound1 (C : Cert nV N n κ a c) (hN : 1 ≤ N) {v : ℕ → ℝ} {M : ℝ} (hM : 1 ≤ M) (hv : ∀ k, 1 ≤ k → |v k| ≤ M)
    {h Z0 δ : ℝ} (h0 : 0 < h) (h1 : h ≤ 1) (hZ : |Z0| ≤ M) (hδ : δ ∈ Set.Icc 0 h) :
    |Ud n a v h Z0 δ - Wf n κ c v h Z0 δ| ≤ B1 N n a c M * h ^ (N - 1) := by
  rw [abs_sub_comm]
  exact bound_at_zero (f := fun δ => |Wf n κ c v h Z0 δ - Ud n a v h Z0 δ|)
    ((continuous_Wf v h Z0).sub (continuous_Ud v h Z0)).abs h0 (fun δ a b => bound1_pos C hN hM hv h0 h1 hZ a b) hδ

theorem bound2 (C : Cert nV N n κ a c) (hN : 2 ≤ N) {v : ℕ → ℝ} {M : ℝ} (hM : 1 ≤ M) (hv : ∀ k, 1 ≤ k → |v k| ≤ M)
    {h Z0 δ : ℝ} (h0 : 0 < h) (h1 : h ≤ 1) (hZ : |Z0| ≤ M) (hδ : δ ∈ Set.Icc 0 h) :
    |Wd n κ c v h Z0 δ - (Z0 + dV nV v h δ) * Uf n a v h Z0 δ| ≤ B2 nV N n a c M * h ^ (N - 2) :=
  bound_at_zero (f := fun δ => |Wd n κ c v h Z0 δ - (Z0 + dV nV v h δ) * Uf n a v h Z0 δ|)
    ((continuous_Wd v h Z0).sub ((continuous_const.add (continuous_dV nV v h)).mul (continuous_Uf v h Z0))).abs h0
    (fun δ a b => bound2_pos C hN hM hv h0 h1 hZ a b) hδ

/-- A bound of `U`. -/
noncomputable def BU (n : ℕ) (a : ℕ → PL) (M : ℝ) : ℝ := ∑ i ∈ Finset.range n, bnd M (a i) * Real.exp M

theorem BU_nonneg {M : ℝ} (hM : 0 ≤ M) : 0 ≤ BU n a M :=
  Finset.sum_nonneg (fun _ _ => mul_nonneg (bnd_nonneg hM _) (Real.exp_pos _).le)

theorem eval_bound0 {l : PL} (hl : Good 0 l) {v : ℕ → ℝ} {M : ℝ} (hM : 1 ≤ M) (hv : ∀ k, 1 ≤ k → |v k| ≤ M)
    {h δ : ℝ} (h0 : 0 < h) (h1 : h ≤ 1) (hδ : δ ∈ Set.Icc 0 h) : |eval v h (δ / h) l| ≤ bnd M l := by
  have := eval_bound hM hv h0.le h1 (div_nonneg hδ.1 h0.le) ((div_le_one h0).mpr hδ.2) (N := 0) (p := 0) l (fun _ _ => by omega) hl
  simpa using this

theorem abs_Uf_le (ha : ∀ i, Good 0 (a i)) {v : ℕ → ℝ} {M : ℝ} (hM : 1 ≤ M) (hv : ∀ k, 1 ≤ k → |v k| ≤ M)
    {h Z0 δ : ℝ} (h0 : 0 < h) (h1 : h ≤ 1) (hZ : |Z0| ≤ M) (hδ : δ ∈ Set.Icc 0 h) : |Uf n a v h Z0 δ| ≤ BU n a M := by
  unfold Uf BU
  refine (Finset.abs_sum_le_sum_abs _ _).trans (Finset.sum_le_sum (fun i _ => ?_))
  rw [abs_mul]
  exact mul_le_mul (eval_bound0 (ha i) hM hv h0 h1 hδ) (abs_etaZ_le hZ hδ.1 (hδ.2.trans h1) i) (abs_nonneg _)
    (bnd_nonneg (by linarith) _)

end

/-- Two columns: `(U, W)` from tables `(a, c)` starting at `(1, 0)` and from `(b, d)` starting at `(0, 1)`. -/
structure Cert2 (nV N n : ℕ) (a b c d : ℕ → PL) : Prop where
  ac : Cert nV N n 1 a c
  bd : Cert nV N n 0 b d
  a0 : ∀ i, Good 0 (a i)
  b0 : ∀ i, Good 0 (b i)
  ia : ∀ v h Z0, Uf n a v h Z0 0 = D
  ib : ∀ v h Z0, Uf n b v h Z0 0 = 0
  ic : ∀ v h Z0, Uf n c v h Z0 0 = 0
  id : ∀ v h Z0, Uf n d v h Z0 0 = D

/-- The constant of the local error. -/
noncomputable def locC (nV N n : ℕ) (a b c d : ℕ → PL) (M : ℝ) : ℝ :=
  (B1 N n a c M + B2 nV N n a c M + B1 N n b d M + B2 nV N n b d M + BU n a M + BU n b M) *
    Real.exp (M + dVbnd nV M + M)

theorem locC_nonneg (nV N n : ℕ) (a b c d : ℕ → PL) {M : ℝ} (hM : 0 ≤ M) : 0 ≤ locC nV N n a b c d M := by
  unfold locC
  have := B1_nonneg (N := N) (n := n) (a := a) (c := c) hM
  have := B1_nonneg (N := N) (n := n) (a := b) (c := d) hM
  have := B2_nonneg (nV := nV) (N := N) (n := n) (a := a) (c := c) hM
  have := B2_nonneg (nV := nV) (N := N) (n := n) (a := b) (c := d) hM
  have := BU_nonneg (n := n) (a := a) hM
  have := BU_nonneg (n := n) (a := b) hM
  positivity

set_option maxHeartbeats 1000000 in
/-- The certified formulas reproduce every solution of `y'' = (V - E) y` up to `C (h^(N-1) + h ε)`. -/
theorem local_error {nV N n : ℕ} {a b c d : ℕ → PL} (C : Cert2 nV N n a b c d) (hN : 2 ≤ N) {M : ℝ} (hM : 1 ≤ M)
    {v : ℕ → ℝ} (hv : ∀ k, 1 ≤ k → |v k| ≤ M) {h E : ℝ} (h0 : 0 < h) (h1 : h ≤ 1) (hE : |v 0 - E| ≤ M) {V : ℝ → ℝ} {ε : ℝ}
    (hε : ε ≤ M) (hV : ∀ x ∈ Set.Icc 0 h, |V x - (v 0 + dV nV v h x)| ≤ ε) {y dy : ℝ → ℝ}
    (hs : SolvesOn V E 0 h y dy) {δ : ℝ} (hδ : δ ∈ Set.Icc 0 h) :
    |(Uf n a v h (v 0 - E) δ * y 0 + Uf n b v h (v 0 - E) δ * dy 0) / D - y δ| ≤
        locC nV N n a b c d M * (h ^ (N - 2) + ε) * δ * max |y 0| |dy 0| ∧
    |(Wf n 1 c v h (v 0 - E) δ * y 0 + Wf n 0 d v h (v 0 - E) δ * dy 0) / D - dy δ| ≤
        locC nV N n a b c d M * (h ^ (N - 2) + ε) * δ * max |y 0| |dy 0| := by
  set Z0 := v 0 - E with hZ0
  set Y := max |y 0| |dy 0| with hY
  have hY0 : 0 ≤ Y := le_max_of_le_left (abs_nonneg _)
  have hy0 : |y 0| ≤ Y := le_max_left _ _
  have hdy0 : |dy 0| ≤ Y := le_max_right _ _
  have hM0 : 0 ≤ M := by linarith
  have hε0 : 0 ≤ ε := (abs_nonneg _).trans (hV 0 ⟨le_rfl, h0.le⟩)
  have hD : (1 : ℝ) ≤ D := by unfold D; norm_num
  have hD0 : (0 : ℝ) < D := by linarith
  set K := M + dVbnd nV M + M with hK
  have hdb := dVbnd_nonneg nV hM0
  have hq : ∀ x ∈ Set.Icc 0 h, |V x - E| ≤ K := by
    intro x hx
    have e1 := hV x hx
    have e2 := abs_dV_le nV hM hv h0 h1 hx.1 hx.2
    have e3 : V x - E = (V x - (v 0 + dV nV v h x)) + (Z0 + dV nV v h x) := by rw [hZ0]; ring
    rw [e3]
    refine (abs_add_le _ _).trans ?_
    have := abs_add_le Z0 (dV nV v h x)
    linarith
  set S := B1 N n a c M + B2 nV N n a c M + B1 N n b d M + B2 nV N n b d M + BU n a M + BU n b M with hS
  have p1 := B1_nonneg (N := N) (n := n) (a := a) (c := c) hM0
  have p2 := B1_nonneg (N := N) (n := n) (a := b) (c := d) hM0
  have p3 := B2_nonneg (nV := nV) (N := N) (n := n) (a := a) (c := c) hM0
  have p4 := B2_nonneg (nV := nV) (N := N) (n := n) (a := b) (c := d) hM0
  have p5 := BU_nonneg (n := n) (a := a) hM0
  have p6 := BU_nonneg (n := n) (a := b) hM0
  have hpow : h ^ (N - 1) ≤ h ^ (N - 2) := pow_le_pow_of_le_one h0.le h1 (by omega)
  have hpow0 : 0 ≤ h ^ (N - 2) := by positivity
  set r := S * (h ^ (N - 2) + ε) * Y with hr
  have hr0 : 0 ≤ r := by positivity
  have small : ∀ A B e f : ℝ, |A| ≤ e → |B| ≤ f → |(A * y 0 + B * dy 0) / D| ≤ (e + f) * Y := by
    intro A B e f hA hB
    rw [abs_div, abs_of_pos hD0, div_le_iff₀ hD0]
    have e0 : 0 ≤ e := (abs_nonneg _).trans hA
    have f0 : 0 ≤ f := (abs_nonneg _).trans hB
    have := abs_add_le (A * y 0) (B * dy 0)
    rw [abs_mul, abs_mul] at this
    have t1 := mul_le_mul hA hy0 (abs_nonneg _) e0
    have t2 := mul_le_mul hB hdy0 (abs_nonneg _) f0
    have t3 : (e + f) * Y ≤ (e + f) * Y * D := le_mul_of_one_le_right (by positivity) hD
    nlinarith
  have key := defect_bound (a := 0) (b := h) (K := K) (r := r) (q := fun x => V x - E)
    (u := fun x => (Uf n a v h Z0 x * y 0 + Uf n b v h Z0 x * dy 0) / D)
    (du := fun x => (Ud n a v h Z0 x * y 0 + Ud n b v h Z0 x * dy 0) / D)
    (w := fun x => (Wf n 1 c v h Z0 x * y 0 + Wf n 0 d v h Z0 x * dy 0) / D)
    (dw := fun x => (Wd n 1 c v h Z0 x * y 0 + Wd n 0 d v h Z0 x * dy 0) / D) (y := y) (dy := dy)
    (by linarith) hr0 hq
    (fun x _ => ((((hasDerivAt_Uf v h Z0 x).mul_const _).add ((hasDerivAt_Uf v h Z0 x).mul_const _)).div_const _).hasDerivWithinAt)
    (fun x _ => ((((hasDerivAt_Wf v h Z0 x).mul_const _).add ((hasDerivAt_Wf v h Z0 x).mul_const _)).div_const _).hasDerivWithinAt)
    (fun x hx => by
      have e1 := bound1 C.ac (by omega) hM hv h0 h1 hE hx
      have e2 := bound1 C.bd (by omega) hM hv h0 h1 hE hx
      have := small _ _ _ _ e1 e2
      have e3 : (Ud n a v h Z0 x * y 0 + Ud n b v h Z0 x * dy 0) / D - (Wf n 1 c v h Z0 x * y 0 + Wf n 0 d v h Z0 x * dy 0) / D =
        ((Ud n a v h Z0 x - Wf n 1 c v h Z0 x) * y 0 + (Ud n b v h Z0 x - Wf n 0 d v h Z0 x) * dy 0) / D := by ring
      rw [e3]
      refine this.trans ?_
      rw [hr]
      refine mul_le_mul_of_nonneg_right ?_ hY0
      calc B1 N n a c M * h ^ (N - 1) + B1 N n b d M * h ^ (N - 1) ≤ (B1 N n a c M + B1 N n b d M) * h ^ (N - 2) := by nlinarith
        _ ≤ S * (h ^ (N - 2) + ε) :=
          mul_le_mul (by linarith) (by linarith) hpow0 (by linarith))
    (fun x hx => by
      have e1 := bound2 C.ac hN hM hv h0 h1 hE hx
      have e2 := bound2 C.bd hN hM hv h0 h1 hE hx
      have f1 := abs_Uf_le (n := n) C.a0 hM hv h0 h1 hE hx
      have f2 := abs_Uf_le (n := n) C.b0 hM hv h0 h1 hE hx
      have g := hV x hx
      set P := V x - (v 0 + dV nV v h x) with hP
      have e3 : (Wd n 1 c v h Z0 x * y 0 + Wd n 0 d v h Z0 x * dy 0) / D - (V x - E) * ((Uf n a v h Z0 x * y 0 + Uf n b v h Z0 x * dy 0) / D) =
        (((Wd n 1 c v h Z0 x - (Z0 + dV nV v h x) * Uf n a v h Z0 x) - P * Uf n a v h Z0 x) * y 0 +
          ((Wd n 0 d v h Z0 x - (Z0 + dV nV v h x) * Uf n b v h Z0 x) - P * Uf n b v h Z0 x) * dy 0) / D := by
        rw [hP, hZ0]; ring
      rw [e3]
      have k1 : |(Wd n 1 c v h Z0 x - (Z0 + dV nV v h x) * Uf n a v h Z0 x) - P * Uf n a v h Z0 x| ≤
          B2 nV N n a c M * h ^ (N - 2) + ε * BU n a M := by
        refine (abs_sub _ _).trans (add_le_add e1 ?_)
        rw [abs_mul]; exact mul_le_mul g f1 (abs_nonneg _) hε0
      have k2 : |(Wd n 0 d v h Z0 x - (Z0 + dV nV v h x) * Uf n b v h Z0 x) - P * Uf n b v h Z0 x| ≤
          B2 nV N n b d M * h ^ (N - 2) + ε * BU n b M := by
        refine (abs_sub _ _).trans (add_le_add e2 ?_)
        rw [abs_mul]; exact mul_le_mul g f2 (abs_nonneg _) hε0
      refine (small _ _ _ _ k1 k2).trans ?_
      rw [hr]
      refine mul_le_mul_of_nonneg_right ?_ hY0
      have q1 : 0 ≤ (B1 N n a c M + B1 N n b d M + BU n a M + BU n b M) * h ^ (N - 2) := by positivity
      have q2 : 0 ≤ (B1 N n a c M + B1 N n b d M + B2 nV N n a c M + B2 nV N n b d M) * ε := by positivity
      have q3 : S * (h ^ (N - 2) + ε) = (B2 nV N n a c M * h ^ (N - 2) + ε * BU n a M +
        (B2 nV N n b d M * h ^ (N - 2) + ε * BU n b M)) +
        (B1 N n a c M + B1 N n b d M + BU n a M + BU n b M) * h ^ (N - 2) +
        (B1 N n a c M + B1 N n b d M + B2 nV N n a c M + B2 nV N n b d M) * ε := by rw [hS]; ring
      rw [q3]
      linarith only [q1, q2])
    hs.d1 hs.d2 (by simp only [C.ia, C.ib]; field_simp; ring)
    (by simp only [Wf, C.ic, C.id]; field_simp; ring) hδ
  have fin : r * (δ - 0) * Real.exp (K * (δ - 0)) ≤ locC nV N n a b c d M * (h ^ (N - 2) + ε) * δ * Y := by
    have e1 : Real.exp (K * (δ - 0)) ≤ Real.exp K := by
      apply Real.exp_le_exp.mpr
      have := hδ.2.trans h1
      have := hδ.1
      nlinarith
    have e2 : 0 ≤ r * (δ - 0) := by have := hδ.1; rw [sub_zero]; positivity
    calc _ ≤ r * (δ - 0) * Real.exp K := mul_le_mul_of_nonneg_left e1 e2
      _ = _ := by rw [hr, locC]; ring
  exact ⟨key.1.trans fin, key.2.trans fin⟩

end Verif.PL
