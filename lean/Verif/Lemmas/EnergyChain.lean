import Verif.Lemmas.EnergyStep
import Verif.Lemmas.Converge

/-!
# How the propagated values and their energy derivatives depend on the energy
-/
namespace Verif.Solver
open Verif.Mesh Verif.YT Verif.CalcT Verif.Propag Verif.Formulas Verif.Legendre Verif.Spec

/-- the energy derivative of `(y, y')` -/
def pe (y : Y ℝ) : ℝ × ℝ := (y.yE, y.dyE)

/-- linear maps -/
def Lin (S : ℝ × ℝ → ℝ × ℝ) : Prop := ∀ (u v : ℝ × ℝ) (α : ℝ), S (u + α • v) = S u + α • S v

theorem Lin.add {S : ℝ × ℝ → ℝ × ℝ} (h : Lin S) (u v : ℝ × ℝ) : S (u + v) = S u + S v := by simpa using h u v 1
theorem Lin.sub {S : ℝ × ℝ → ℝ × ℝ} (h : Lin S) (u v : ℝ × ℝ) : S (u - v) = S u - S v := by
  have := h u v (-1); simpa [sub_eq_add_neg] using this
theorem Lin.subsmul {S : ℝ × ℝ → ℝ × ℝ} (h : Lin S) (u v : ℝ × ℝ) (α : ℝ) : S (u - α • v) = S u - α • S v := by
  have := h u v (-α); simpa [sub_eq_add_neg] using this

theorem lin_mapOf (m : M2 ℝ) : Lin (mapOf m) := by
  intro u v α
  ext <;> simp [mapOf, mv] <;> ring
theorem lin_id : Lin id := fun _ _ _ => rfl
theorem lin_zero : Lin (fun _ => 0) := by intro u v α; simp
theorem lin_flip {S : ℝ × ℝ → ℝ × ℝ} (h : Lin S) : Lin (fun u => flipY (S (flipY u))) := by
  intro u v α
  have e : flipY (u + α • v) = flipY u + α • flipY v := by ext <;> simp [flipY]; ring
  have e' : ∀ p q : ℝ × ℝ, flipY (p + α • q) = flipY p + α • flipY q := by intro p q; ext <;> simp [flipY]; ring
  show flipY (S (flipY (u + α • v))) = flipY (S (flipY u)) + α • flipY (S (flipY v))
  rw [e, h, e']

theorem sz_smul (α : ℝ) (u : ℝ × ℝ) : sz (α • u) = |α| * sz u := by
  simp only [sz, Prod.smul_fst, Prod.smul_snd, smul_eq_mul, abs_mul]
  exact (mul_max_of_nonneg _ _ (abs_nonneg α)).symm

/-- One step at two energies: `S` and `D` are the map at the first energy and its computed energy derivative. -/
def ELin (st st' : Y ℝ → Y ℝ) (Δ β r : ℝ) : Prop :=
  ∃ S D S' : ℝ × ℝ → ℝ × ℝ, Lin S ∧ Lin D ∧ (∀ c, pr (st c) = S (pr c)) ∧ (∀ c, pe (st c) = S (pe c) + D (pr c)) ∧
    (∀ c, pr (st' c) = S' (pr c)) ∧ (∀ u, sz (D u) ≤ β * sz u) ∧ ∀ u, sz (S' u - S u - Δ • D u) ≤ r * sz u

/-- … and with bounded growth. -/
def EStep (st st' : Y ℝ → Y ℝ) (Δ L r : ℝ) : Prop :=
  0 ≤ L ∧ 0 ≤ r ∧ ELin st st' Δ L r ∧ (∀ c, sz (pr (st c)) ≤ Real.exp L * sz (pr c)) ∧ (∀ c, sz (pr (st' c)) ≤ Real.exp L * sz (pr c))

theorem pr_mk (u : ℝ × ℝ) : pr (⟨u.1, u.2, 0, 0⟩ : Y ℝ) = u := rfl

theorem ELin.mono {st st' : Y ℝ → Y ℝ} {Δ β r β' r' : ℝ} (h : ELin st st' Δ β r) (h1 : β ≤ β') (h2 : r ≤ r') : ELin st st' Δ β' r' := by
  obtain ⟨S, D, S', a1, a2, a3, a4, a5, a6, a7⟩ := h
  exact ⟨S, D, S', a1, a2, a3, a4, a5, fun u => (a6 u).trans (mul_le_mul_of_nonneg_right h1 (sz_nonneg _)),
    fun u => (a7 u).trans (mul_le_mul_of_nonneg_right h2 (sz_nonneg _))⟩

theorem elin_id (Δ : ℝ) : ELin (fun c => c) (fun c => c) Δ 0 0 := by
  refine ⟨id, fun _ => 0, id, lin_id, lin_zero, fun _ => rfl, fun c => by simp, fun _ => rfl, fun u => by simp [sz], fun u => by simp [sz]⟩

theorem sz_flip_lin {p q r : ℝ × ℝ} (α : ℝ) : flipY p - flipY q - α • flipY r = flipY (p - q - α • r) := by
  ext <;> simp [flipY]; ring

/-- A backward sector works on reversed columns. -/
theorem ELin.reverse {st st' : Y ℝ → Y ℝ} {Δ β r : ℝ} (h : ELin st st' Δ β r) :
    ELin (fun c => (st c.reverse).reverse) (fun c => (st' c.reverse).reverse) Δ β r := by
  obtain ⟨S, D, S', a1, a2, a3, a4, a5, a6, a7⟩ := h
  refine ⟨fun u => flipY (S (flipY u)), fun u => flipY (D (flipY u)), fun u => flipY (S' (flipY u)), lin_flip a1, lin_flip a2, fun c => ?_, fun c => ?_, fun c => ?_, fun u => ?_, fun u => ?_⟩
  · show flipY (pr (st c.reverse)) = _
    rw [a3]; rfl
  · show flipY (pe (st c.reverse)) = _
    rw [a4]
    ext <;> simp [flipY, pe, pr, Y.reverse]; ring
  · show flipY (pr (st' c.reverse)) = _
    rw [a5]; rfl
  · rw [sz_flipY]; have := a6 (flipY u); rwa [sz_flipY] at this
  · rw [sz_flip_lin, sz_flipY]; have := a7 (flipY u); rwa [sz_flipY] at this

/-- matrices with small entries are small maps -/
theorem sz_mapOf {m : M2 ℝ} {c : ℝ} (h : ∀ p : Cp, |p.of m| ≤ c) (u : ℝ × ℝ) : sz (mapOf m u) ≤ 2 * c * sz u := by
  have := mapOf_change (m := m) (n := ⟨0, 0, 0, 0⟩) (c := c) (fun p => by have := h p; cases p <;> simpa [Cp.of] using this) u
  have e : mapOf (⟨0, 0, 0, 0⟩ : M2 ℝ) u = 0 := by simp [mapOf, mv]
  rwa [e, sub_zero] at this

/-- The difference matrix `A' - A - Δ B`. -/
def lincomb (A A' B : M2 ℝ) (Δ : ℝ) : M2 ℝ := ⟨A'.a - A.a - Δ * B.a, A'.b - A.b - Δ * B.b, A'.c - A.c - Δ * B.c, A'.d - A.d - Δ * B.d⟩

theorem mapOf_lincomb (A A' B : M2 ℝ) (Δ : ℝ) (u : ℝ × ℝ) : mapOf A' u - mapOf A u - Δ • mapOf B u = mapOf (lincomb A A' B Δ) u := by
  ext <;> simp [mapOf, mv, lincomb] <;> ring

theorem elin_mul {A A' : T ℝ} {Δ β ρ : ℝ} (h1 : ∀ p : Cp, |p.of A'.t - p.of A.t - Δ * p.of A.dt| ≤ ρ) (h2 : ∀ p : Cp, |p.of A.dt| ≤ β) :
    ELin A.mul A'.mul Δ (2 * β) (2 * ρ) ∧ ELin A.div A'.div Δ (2 * β) (2 * ρ) := by
  constructor
  · refine ⟨mapOf A.t, mapOf A.dt, mapOf A'.t, lin_mapOf _, lin_mapOf _, fun _ => rfl, fun _ => rfl, fun _ => rfl, sz_mapOf h2, fun u => ?_⟩
    rw [mapOf_lincomb]
    exact sz_mapOf (fun p => by have := h1 p; cases p <;> simpa [Cp.of, lincomb] using this) u
  · refine ⟨mapOf A.t.adj, mapOf A.dt.adj, mapOf A'.t.adj, lin_mapOf _, lin_mapOf _, fun _ => rfl, fun _ => rfl, fun _ => rfl,
      sz_mapOf (fun p => ?_), fun u => ?_⟩
    · cases p
      · exact h2 .d
      · have := h2 .b; simpa [Cp.of, M2.adj] using this
      · have := h2 .c; simpa [Cp.of, M2.adj] using this
      · exact h2 .a
    rw [mapOf_lincomb]
    refine sz_mapOf (fun p => ?_) u
    cases p
    · exact h1 .d
    · have := h1 .b
      rw [← abs_neg] at this
      refine le_trans (le_of_eq (congrArg _ ?_)) this
      simp only [Cp.of, M2.adj, lincomb]; ring
    · have := h1 .c
      rw [← abs_neg] at this
      refine le_trans (le_of_eq (congrArg _ ?_)) this
      simp only [Cp.of, M2.adj, lincomb]; ring
    · exact h1 .a

/-- The invariant along a chain of steps. -/
structure EInv (Δ s g X R : ℝ) (c c' : Y ℝ) : Prop where
  s0 : 0 ≤ s
  g1 : 1 ≤ g
  X0 : 0 ≤ X
  R0 : 0 ≤ R
  u : sz (pr c) ≤ g * s
  u' : sz (pr c') ≤ g * s
  w : sz (pe c) ≤ g * X * s
  d : sz (pr c' - pr c) ≤ g * (|Δ| * X + R) * s
  q : sz (pr c' - pr c - Δ • pe c) ≤ g * (R + |Δ| * X * (|Δ| * X + R)) * s

theorem EInv.step {Δ s g X R L r : ℝ} {c c' : Y ℝ} {st st' : Y ℝ → Y ℝ} (h : EInv Δ s g X R c c') (hs : EStep st st' Δ L r) :
    EInv Δ s (g * Real.exp L) (X + L) (R + r) (st c) (st' c') := by
  obtain ⟨L0, r0, ⟨S, D, S', lS, lD, eS, eD, eS', bD, bR⟩, gS, gS'⟩ := hs
  have bS : ∀ u, sz (S u) ≤ Real.exp L * sz u := fun u => by have := gS ⟨u.1, u.2, 0, 0⟩; rwa [eS, pr_mk] at this
  have bS' : ∀ u, sz (S' u) ≤ Real.exp L * sz u := fun u => by have := gS' ⟨u.1, u.2, 0, 0⟩; rwa [eS', pr_mk] at this
  obtain ⟨s0, g1, X0, R0, hu, hu', hw, hd, hq⟩ := h
  set x := Real.exp L with hx
  have x1 : 1 ≤ x := Real.one_le_exp L0
  have x0 : 0 ≤ x := by linarith
  set δ := |Δ| with hδ
  have δ0 : 0 ≤ δ := abs_nonneg Δ
  have g0 : 0 ≤ g := by linarith
  have gs : 0 ≤ g * s := by positivity
  have up : ∀ {z : ℝ}, 0 ≤ z → z ≤ x * z := fun hz => le_mul_of_one_le_left hz x1
  refine ⟨s0, one_le_mul_of_one_le_of_one_le g1 x1, by linarith, by linarith, ?_, ?_, ?_, ?_, ?_⟩
  · rw [eS]
    refine (bS _).trans ((mul_le_mul_of_nonneg_left hu x0).trans (le_of_eq (by ring)))
  · rw [eS']
    refine (bS' _).trans ((mul_le_mul_of_nonneg_left hu' x0).trans (le_of_eq (by ring)))
  · rw [eD]
    have k1 := (bS (pe c)).trans (mul_le_mul_of_nonneg_left hw x0)
    have k2 := (bD (pr c)).trans (mul_le_mul_of_nonneg_left hu L0)
    have k3 : L * (g * s) ≤ x * (L * (g * s)) := up (by positivity)
    have k4 := sz_add (S (pe c)) (D (pr c))
    have k5 : g * x * (X + L) * s = x * (g * X * s) + x * (L * (g * s)) := by ring
    linarith
  · rw [eS, eS']
    have e1 : S' (pr c') - S (pr c) = S (pr c' - pr c) + ((S' (pr c') - S (pr c') - Δ • D (pr c')) + Δ • D (pr c')) := by rw [lS.sub]; abel
    rw [e1]
    have k1 := (bS (pr c' - pr c)).trans (mul_le_mul_of_nonneg_left hd x0)
    have k2 := (bR (pr c')).trans (mul_le_mul_of_nonneg_left hu' r0)
    have k3 : sz (Δ • D (pr c')) ≤ δ * (L * (g * s)) := by
      rw [sz_smul]; exact mul_le_mul_of_nonneg_left ((bD _).trans (mul_le_mul_of_nonneg_left hu' L0)) δ0
    have k4 := sz_add (S (pr c' - pr c)) ((S' (pr c') - S (pr c') - Δ • D (pr c')) + Δ • D (pr c'))
    have k5 := sz_add (S' (pr c') - S (pr c') - Δ • D (pr c')) (Δ • D (pr c'))
    have k6 : r * (g * s) ≤ x * (r * (g * s)) := up (by positivity)
    have k7 : δ * (L * (g * s)) ≤ x * (δ * (L * (g * s))) := up (by positivity)
    have k8 : g * x * (δ * (X + L) + (R + r)) * s = x * (g * (δ * X + R) * s) + x * (r * (g * s)) + x * (δ * (L * (g * s))) := by ring
    linarith
  · rw [eS, eS', eD]
    have e1 : S' (pr c') - S (pr c) - Δ • (S (pe c) + D (pr c)) = S (pr c' - pr c - Δ • pe c) + ((S' (pr c') - S (pr c') - Δ • D (pr c')) + Δ • D (pr c' - pr c)) := by
      rw [lS.subsmul, lS.sub, lD.sub, smul_add, smul_sub]; abel
    rw [e1]
    set Q := δ * X + R with hQ
    have Q0 : 0 ≤ Q := by positivity
    have k1 := (bS (pr c' - pr c - Δ • pe c)).trans (mul_le_mul_of_nonneg_left hq x0)
    have k2 := (bR (pr c')).trans (mul_le_mul_of_nonneg_left hu' r0)
    have k3 : sz (Δ • D (pr c' - pr c)) ≤ δ * (L * (g * Q * s)) := by
      rw [sz_smul]; exact mul_le_mul_of_nonneg_left ((bD _).trans (mul_le_mul_of_nonneg_left hd L0)) δ0
    have k4 := sz_add (S (pr c' - pr c - Δ • pe c)) ((S' (pr c') - S (pr c') - Δ • D (pr c')) + Δ • D (pr c' - pr c))
    have k5 := sz_add (S' (pr c') - S (pr c') - Δ • D (pr c')) (Δ • D (pr c' - pr c))
    have k6 : r * (g * s) ≤ x * (r * (g * s)) := up (by positivity)
    have k7 : δ * (L * (g * Q * s)) ≤ x * (δ * (L * (g * Q * s))) := up (by positivity)
    have k8 : g * x * (R + r + δ * (X + L) * (δ * (X + L) + (R + r))) * s = x * (g * (R + δ * X * Q) * s) + x * (r * (g * s)) + x * (δ * (L * (g * Q * s))) +
        x * (g * (δ * (X + L) * (δ * L + r)) * s) := by rw [hQ]; ring
    have k9 : 0 ≤ x * (g * (δ * (X + L) * (δ * L + r)) * s) := by positivity
    linarith

/-- The invariant along a whole chain. -/
theorem EInv.fold {Δ s : ℝ} {L r : ℕ → ℝ} {st st' : Y ℝ → ℕ → Y ℝ} : ∀ (l : List ℕ) {g X R : ℝ} {c c' : Y ℝ}, EInv Δ s g X R c c' →
    (∀ k ∈ l, EStep (fun c => st c k) (fun c => st' c k) Δ (L k) (r k)) →
    EInv Δ s (g * Real.exp (l.map L).sum) (X + (l.map L).sum) (R + (l.map r).sum) (l.foldl st c) (l.foldl st' c')
  | [], g, X, R, c, c', h, _ => by simpa using h
  | k :: l, g, X, R, c, c', h, hk => by
    have := EInv.fold l (h.step (hk k (by simp))) (fun m hm => hk m (List.mem_cons_of_mem _ hm))
    rw [List.foldl_cons, List.foldl_cons, List.map_cons, List.map_cons, List.sum_cons, List.sum_cons, Real.exp_add, ← mul_assoc, ← add_assoc, ← add_assoc]
    exact this

end Verif.Solver
