import Verif.Lemmas.FlEigenNear
import Verif.Lemmas.FlBox

/-!
# C127: the returned eigenfunction in finite precision

`MEigenfunction` (`Model/Eigen`), built on the solver's own sectors (`Model/Rounded`), all over a scalar type `Fl fl` that rounds every operation.
-/
namespace Verif.Fp
open Verif.Mesh Verif.YT Verif.CalcT Verif.Propag Verif.Solver Verif.Spec Verif.Legendre Verif.Eigen

/-- **C127**: in finite precision, at an energy `E` near an eigenvalue `lam`, `eigenfunction` returns an object whose values and derivatives, evaluated one point at a time or as
an array, are within a constant times `H^15 + ε + eps + |E - lam|` of the exact normalised eigenfunction `u` (up to its sign, the same for all points), at every point of the domain that is a
number of the type; outside the domain the values are zero. `ε` bounds the coefficients' accuracy plus the roundoff and η accuracy of all sectors together; `eps` is the threshold of skipped steps;
`a`, at most `ε`, is the accuracy of the square root of the type. The constant depends only on the bound `M` for the potential, the domain, the energies and the boundary values: not on the mesh, nor on
the arithmetic. -/
theorem C127_eigenfunction_finite_precision (M : ℝ) (hM : 1 ≤ M) : ∃ C : ℝ, 1 ≤ C ∧ ∀ (fl : ℝ → ℝ) (H ur mu σ τ ε a : ℝ) (W : Sec ℝ → ℝ → ℝ) (dmin dmax eps : Fl fl) (r : BuildResult (Fl fl))
    (eta : ℕ → Fl fl → ℕ → Fl fl) (vs : Sec (Fl fl) → ℕ → Fl fl) (th : Fl fl → Fl fl → Fl fl → Y (Fl fl) → Fl fl) (pru : Fl fl → Fl fl → Fl fl → Fl fl → Y (Fl fl) → Y (Fl fl) → Fl fl)
    (sqrt : Fl fl → Fl fl) (E : Fl fl) (left right : Y (Fl fl)) (lam : ℝ) (u du : ℝ → ℝ),
    FlFit M H ur mu σ τ (6 * M * H) W dmin dmax eps r.sectors eta vs → 0 ≤ σ → τ + r.sectors.length * (ur + σ) ≤ ε → ε ≤ 1 / 8 → 0 ≤ a → a ≤ ε →
    (∀ x : Fl fl, 0 < x.val → |(sqrt x).val - Real.sqrt x.val| ≤ a * max (Real.sqrt x.val) mu) → dmax.val - dmin.val ≤ M → 1 / M ≤ dmax.val - dmin.val → |lam| ≤ M → |E.val| ≤ M →
    r.matchIndex < r.sectors.length → 1 / M ≤ max |left.y.val| |left.dy.val| → max |left.y.val| |left.dy.val| ≤ M → 1 / M ≤ max |right.y.val| |right.dy.val| → max |right.y.val| |right.dy.val| ≤ M →
    left.yE.val = 0 → left.dyE.val = 0 → right.yE.val = 0 → right.dyE.val = 0 →
    IsEigenfunction W (realMesh r.sectors) dmin.val dmax.val (left.y.val, left.dy.val) (right.y.val, right.dy.val) lam u du →
    C * (H ^ 16 + ε + |E.val - lam|) ≤ 1 →
    ∃ f ς, eigenfunction sqrt (constructGen eps eta th pru vs dmin dmax r) E left right = .ok f ∧ (ς = 1 ∨ ς = -1) ∧
      (∀ x : Fl fl, dmin.val ≤ x.val → x.val ≤ dmax.val → ∃ v, f.eval x = .ok v ∧
        |v.1.val - ς * u x.val| ≤ C * (H ^ 15 + ε + eps.val + |E.val - lam|) ∧ |v.2.val - ς * du x.val| ≤ C * (H ^ 15 + ε + eps.val + |E.val - lam|)) ∧
      (∀ xs : List (Fl fl), (∀ x ∈ xs, dmin.val ≤ x.val ∧ x.val ≤ dmax.val) → ∃ ys, f.evalArray xs = .ok ys ∧
        List.Forall₂ (fun x v => |v.1.val - ς * u x.val| ≤ C * (H ^ 15 + ε + eps.val + |E.val - lam|) ∧ |v.2.val - ς * du x.val| ≤ C * (H ^ 15 + ε + eps.val + |E.val - lam|)) xs ys) ∧
      (∀ x : Fl fl, x.val < dmin.val ∨ dmax.val < x.val → f.eval x = .ok 0) := by
  obtain ⟨C, hC, key⟩ := eigen_values_near_fl M hM
  refine ⟨C, hC, ?_⟩
  intro fl H ur mu σ τ ε a W dmin dmax eps r eta vs th pru sqrt E left right lam u du hF hσ0 hε hε8 ha0 haε hsq hd hd' hlam hEM hm hl hl' hr hr' l3 l4 r3 r4 heig hsmall
  obtain ⟨f, ς, e, wf, fd, fd', hς, hv⟩ := key fl H ur mu σ τ ε a W dmin dmax eps r eta vs th pru sqrt E left right lam u du hF hσ0 hε hε8 ha0 haε hsq hd hd' hlam hEM hm hl hl' hr hr' l3 l4 r3 r4 heig hsmall
  refine ⟨f, ς, e, hς, ?_, ?_, ?_⟩
  · intro x h1 h2
    obtain ⟨v, ev, hv'⟩ := eval_value wf x (by simp)
    exact ⟨v, ev, hv x h1 h2 v hv'⟩
  · intro xs hxs
    obtain ⟨⟨ys, ey, hy⟩, -⟩ := C09_array_evaluation wf xs (fun x _ => by simp)
    refine ⟨ys, ey, ?_⟩
    clear ey
    induction hy with
    | nil => exact .nil
    | cons hp _ ih =>
      exact .cons (hv _ (hxs _ (by simp)).1 (hxs _ (by simp)).2 _ hp) (ih (fun x hx => hxs x (by simp [hx])))
  · intro x hx
    unfold EigenObj.eval
    have : f.outside x = true := by
      unfold EigenObj.outside
      rw [fd, fd']
      simpa using hx
    simp [this]

/-- C127: IEEE arithmetic with gradual underflow and a correctly rounded square root meets the hypotheses: for the particle in a box, `-y'' = E y` on `[0, boxB]`, at the eigenvalue `3/2`. -/
example : ∃ C : ℝ, 1 ≤ C ∧ ∃ (p : ℕ) (H ur ε : ℝ) (r : BuildResult (Fl (rne p (1 - 2 * p)))) (u du : ℝ → ℝ), 0 < ur ∧ C * (H ^ 16 + ε) ≤ 1 / 2 ∧
    IsEigenfunction (fun _ _ => 0) (realMesh r.sectors) 0 boxB (0, 1) (0, 1) (3 / 2) u du ∧
    ∃ f ς, eigenfunction (fun x => ⟨rne p (1 - 2 * p) (Real.sqrt x.val)⟩) (constructGen 0 (fun _ Z i => ⟨Eta.eta i Z.val⟩) (fun _ _ _ _ => 0) (fun _ _ _ _ _ _ => 0) (fun _ _ => 0) 0 ⟨boxB⟩ r) ⟨3 / 2⟩ ⟨0, 1, 0, 0⟩ ⟨0, 1, 0, 0⟩ = .ok f ∧ (ς = 1 ∨ ς = -1) ∧
      ∀ x : Fl (rne p (1 - 2 * p)), 0 ≤ x.val → x.val ≤ boxB → ∃ v, f.eval x = .ok v ∧ |v.1.val - ς * u x.val| ≤ C * (H ^ 15 + ε) ∧ |v.2.val - ς * du x.val| ≤ C * (H ^ 15 + ε) := by
  obtain ⟨C, hC, key⟩ := C127_eigenfunction_finite_precision 30 (by norm_num)
  obtain ⟨p, H, ur, ε, r, hp, u0, u8, hF, h1, h2, h3, h4, h5⟩ := fl_box hC
  have hB := boxB_range
  have hev := h5 0
  have e0 : (3 / 2 * (((0 : ℕ) : ℝ) + 1) ^ 2) = 3 / 2 := by norm_num
  rw [e0] at hev
  obtain ⟨u, du, hu⟩ := C98_eigenfunction_exists (by norm_num) hF.fit (by show boxB - 0 ≤ 30; linarith) (by show 1 / 30 ≤ boxB - 0; linarith) (by norm_num [abs_of_pos]) hev
  have n1 : (1 : ℝ) ≤ r.sectors.length := by exact_mod_cast (show 1 ≤ r.sectors.length by omega)
  have uε : ur ≤ ε := by
    have := le_mul_of_one_le_left u0.le n1
    linarith
  obtain ⟨f, ς, k1, k2, k3, -⟩ := key _ H ur ur 0 0 ε ur _ _ _ _ r _ _ (fun _ _ _ _ => 0) (fun _ _ _ _ _ _ => 0) (fun x => ⟨rne p (1 - 2 * p) (Real.sqrt x.val)⟩) ⟨3 / 2⟩ ⟨0, 1, 0, 0⟩ ⟨0, 1, 0, 0⟩ (3 / 2) u du hF le_rfl h1 h2
    u0.le uε (fun x hx => by
      have := hF.r.err (Real.sqrt x.val)
      rwa [abs_of_nonneg (Real.sqrt_nonneg _)] at this)
    (by show boxB - 0 ≤ 30; linarith) (by show 1 / 30 ≤ boxB - 0; linarith) (by norm_num [abs_of_pos]) (by norm_num [abs_of_pos]) h4 (by norm_num) (by norm_num) (by norm_num) (by norm_num) rfl rfl rfl rfl (by simpa using hu)
    (by simp; linarith)
  refine ⟨C, hC, p, H, ur, ε, r, u, du, u0, h3, hu, f, ς, k1, k2, fun x x1 x2 => ?_⟩
  obtain ⟨v, v1, v2, v3⟩ := k3 x x1 x2
  exact ⟨v, v1, by simpa using v2, by simpa using v3⟩

end Verif.Fp
