import Verif.Lemmas.ArgExact
import Verif.Props.Matscs
import Verif.Props.MatscsConst

/-!
# The angle returned by `Matscs::propagate` (C109)

`Matscs::propagate` returns, besides the block of solutions `Y`, an angle `argdet`: an argument of `det Θ`,
`Θ = (Y' + iY)(Y' - iY)⁻¹`, meant to be followed continuously along the domain (it counts eigenvalues).
`theta`, `argInc`, `incs` (`Model/MatscsArg`) model its computation.

Full statement: on every problem the angle is the change, from `a` to `b`, of a continuous argument of `det Θ`. The code violates it
(`C109_wrong_when_basis_permuted`); the two `_partial` theorems give what holds: the value modulo `2π`, and the exact value for decoupled
systems in the order of the eigenbasis. Missing: the multiple of `2π` for coupled systems.
-/
namespace Verif.Matscs
open Verif.Prufer Verif.Mesh Verif.Spec
open Real (pi sin cos)

/-- **C109, modulo 2π.** On every problem with invertible transfer matrices, for every `a`, `b` and starting block such that `Y' + iY` is
invertible along the computed solution: the angle returned is, modulo `2π`, the change of the argument of `det Θ` from `a` to `b`
(`|det Θ| = 1`). `v0 k` is arbitrary. -/
theorem C109_argument_mod_two_pi_partial {n : ℕ} {P : CProb n ℝ} {E : ℝ} {useH : Bool} (g : P.Good E useH) (v0 : ℕ → Fin n → ℝ) (y : Yn n n ℝ) {a b : ℝ}
    (ha : P.xmin ≤ a ∧ a ≤ P.xmax) (hb : P.xmin ≤ b ∧ b ≤ P.xmax)
    (hreg : ∀ x, P.xmin ≤ x → x ≤ P.xmax → ∀ u, P.propagateColumn E y a x useH = .ok u → (u.derC + Complex.I • u.valC).det ≠ 0) :
    ∃ r : Yn n n ℝ × ℝ, P.propagate (incs exactEta P v0) E y a b useH = .ok r ∧ P.propagateColumn E y a b useH = .ok r.1 ∧
      ‖(theta y).det‖ = 1 ∧ ‖(theta r.1).det‖ = 1 ∧ Complex.exp (Complex.I * (r.2 : ℝ)) * (theta y).det = (theta r.1).det := by
  have gg := g.toG (r := n)
  have hx : ∀ p, P.xmin ≤ p ∧ p ≤ P.xmax → P.propagateColumn E y a p useH = .ok (((P.toG n).Phi Yn.reverse E useH p * ((P.toG n).Phi Yn.reverse E useH a)⁻¹) y) :=
    fun p hp => propagateColumn_eq_Phi Yn.reverse_reverse gg y ha hp
  have reg : ∀ p, P.xmin ≤ p ∧ p ≤ P.xmax → (((P.toG n).Phi Yn.reverse E useH p * ((P.toG n).Phi Yn.reverse E useH a)⁻¹) y).plus.det ≠ 0 :=
    fun p hp => hreg p hp.1 hp.2 _ (hx p hp)
  have hya : ((P.toG n).Phi Yn.reverse E useH a * ((P.toG n).Phi Yn.reverse E useH a)⁻¹) y = y := by rw [mul_inv_cancel]; rfl
  have hin : ∀ k (hk : k < (P.toG n).secs.length) p, p ∈ Set.Icc ((P.toG n).secs[k]).min ((P.toG n).secs[k]).max → P.xmin ≤ p ∧ p ≤ P.xmax := by
    intro k hk p hp
    have hm := gg.mesh
    have hlen := gmesh_length (P.toG n)
    have hkm : k < (P.toG n).mesh.length := by rw [hlen]; exact hk
    have h1 := hm.sector_in_domain hkm (x := p) (by
      rw [gmesh_get _ k hk]
      simp only [Sec.contains, ccmp_le, Bool.and_eq_true, decide_eq_true_eq]
      exact ⟨hp.2, hp.1⟩)
    have h2 : (P.toG n).xmin ≤ p ∧ p ≤ (P.toG n).xmax := by simpa [Mesh.domainContains] using h1
    exact h2
  obtain ⟨r, hr, hq⟩ := arg_trace (rev := Yn.reverse) (dArg := incs exactEta P v0) (P := P.toG n) (E := E) (useH := useH)
    (Q := fun p st => st.1 = ((P.toG n).Phi Yn.reverse E useH p * ((P.toG n).Phi Yn.reverse E useH a)⁻¹) y ∧
      Complex.exp (Complex.I * (st.2 : ℝ)) * (theta y).det = (theta st.1).det) gg.mesh (fun s hs => (gg.secs s hs).h_eq) (fun s hs => (gg.secs s hs).dir)
    (by
      intro k hk p p' δ st hp hp' hδ href ⟨hst, he⟩
      have step := phi_step Yn.reverse_reverse gg hk hp hp' hδ href st.1
      have e1 : ((P.toG n).secs[k]).propagateDelta Yn.reverse E useH st.1 δ = ((P.toG n).Phi Yn.reverse E useH p' * ((P.toG n).Phi Yn.reverse E useH a)⁻¹) y := by
        rw [step, hst, ← Equiv.Perm.mul_apply]
        congr 1
        group
      refine ⟨e1, ?_⟩
      have hk' : k < P.secs.length := by simpa [CProb.toG] using hk
      have n0 : st.1.plus.det ≠ 0 := by rw [hst]; exact reg p (hin k hk p hp)
      have n1 : (((P.toG n).secs[k]).propagateDelta Yn.reverse E useH st.1 δ).plus.det ≠ 0 := by rw [e1]; exact reg p' (hin k hk p' hp')
      have := inc_mod (P.secs[k]).h (v0 k) E δ n0 n1
      rw [show incs exactEta P v0 k E st.1 (((P.toG n).secs[k]).propagateDelta Yn.reverse E useH st.1 δ) δ
        = argInc exactEta (P.secs[k]).h (v0 k) E st.1 (((P.toG n).secs[k]).propagateDelta Yn.reverse E useH st.1 δ) δ by
          simp only [incs, List.getElem?_eq_getElem hk']]
      push_cast
      rw [mul_add, Complex.exp_add, ← this, ← he]
      ring) ha hb (y := y) ⟨hya.symm, by simp⟩
  refine ⟨r, hr, by rw [hq.1]; exact hx b hb, ?_, ?_, hq.2⟩
  · refine (det_theta y ?_).2
    have := reg a ha
    rwa [hya] at this
  · refine (det_theta r.1 ?_).2
    rw [hq.1]; exact reg b hb

/-- **C109, continuous angle.** In a decoupled system whose potential is constant on every sector, its entries in the order of the basis the sectors work in
(`vs[0].diagonal()` of sector `k` is `v k`, the transfer matrices are the exact ones), let `y j` be the exact solutions of the components and `φ j` continuous
angles of `(y j, y j')`. From the block with diagonal `y j a`, `y j' a`, `propagate` returns the exact block at `b` and the angle is exactly
`2 Σ (φ j b - φ j a)`: the argument of `det Θ` followed continuously. For every number of components, energy, mesh, direction and `a`, `b`. -/
theorem C109_decoupled_exact_partial {n : ℕ} {P : CProb n ℝ} {E : ℝ} {useH : Bool} {v : ℕ → Fin n → ℝ} {y dy φ : Fin n → ℝ → ℝ}
    (hm : IsMesh P.mesh P.xmin P.xmax) (hlt : ∀ s ∈ P.secs, s.min < s.max) (hh : ∀ s ∈ P.secs, s.h = s.max - s.min)
    (hdir : ∀ s ∈ P.secs, s.dir = .forward ∨ s.dir = .backward)
    (hT : ∀ k (hk : k < P.secs.length) δ, 0 ≤ δ → δ ≤ (P.secs[k]).h → ((P.secs[k]).tr E δ useH).t = diagT (fun j => v k j - E) δ)
    (hsol : ∀ k (hk : k < P.secs.length) j, SolvesOn (fun _ => v k j) E (P.secs[k]).min (P.secs[k]).max (y j) (dy j))
    (hne : ∀ j, ∀ x ∈ Set.Icc P.xmin P.xmax, ¬ (y j x = 0 ∧ dy j x = 0)) (hc : ∀ j, ContinuousOn (φ j) (Set.Icc P.xmin P.xmax))
    (hang : ∀ j, ∀ x ∈ Set.Icc P.xmin P.xmax, IsAngle (φ j x) (y j x) (dy j x))
    {a b : ℝ} (ha : P.xmin ≤ a ∧ a ≤ P.xmax) (hb : P.xmin ≤ b ∧ b ≤ P.xmax) {u : Yn n n ℝ} (hu : u.IsDiag (fun j => y j a) (fun j => dy j a)) :
    ∃ r : Yn n n ℝ × ℝ, P.propagate (incs exactEta P v) E u a b useH = .ok r ∧ r.1.IsDiag (fun j => y j b) (fun j => dy j b) ∧
      r.2 = 2 * ∑ j, (φ j b - φ j a) := by
  have hm' : IsMesh (P.toG n).mesh (P.toG n).xmin (P.toG n).xmax := by rw [P.toG_mesh]; exact hm
  have hget : ∀ k (hk : k < (P.toG n).secs.length) (hk' : k < P.secs.length), (P.toG n).secs[k] = (P.secs[k]).toG n := by
    intro k hk hk'
    simp [CProb.toG]
  have hmem : ∀ s ∈ (P.toG n).secs, ∃ c ∈ P.secs, s = c.toG n := by
    intro s hs
    simp only [CProb.toG, List.mem_map] at hs
    obtain ⟨c, hc, rfl⟩ := hs
    exact ⟨c, hc, rfl⟩
  obtain ⟨r, hr, hq⟩ := arg_trace (rev := Yn.reverse) (dArg := incs exactEta P v) (P := P.toG n) (E := E) (useH := useH)
    (Q := fun p st => st.1.IsDiag (fun j => y j p) (fun j => dy j p) ∧ st.2 = 2 * ∑ j, (φ j p - φ j a)) hm'
    (fun s hs => by obtain ⟨c, hc, rfl⟩ := hmem s hs; exact hh c hc) (fun s hs => by obtain ⟨c, hc, rfl⟩ := hmem s hs; exact hdir c hc)
    (by
      intro k hk p p' δ st hp hp' hδ href ⟨hd, he⟩
      have hk' : k < P.secs.length := by simpa [CProb.toG] using hk
      have hs := List.getElem_mem hk'
      have hdom : ∀ x, x ∈ Set.Icc (P.secs[k]).min (P.secs[k]).max → x ∈ Set.Icc P.xmin P.xmax := by
        intro x hx
        have hkm : k < (P.toG n).mesh.length := by rw [gmesh_length]; exact hk
        have h1 := hm'.sector_in_domain hkm (x := x) (by
          rw [gmesh_get _ k hk, hget k hk hk']
          simp only [Sec.contains, ccmp_le, Bool.and_eq_true, decide_eq_true_eq]
          exact ⟨hx.2, hx.1⟩)
        have h2 : (P.toG n).xmin ≤ x ∧ x ≤ (P.toG n).xmax := by simpa [Mesh.domainContains] using h1
        exact h2
      have e : clip (P.secs[k]).h δ = clipD (P.secs[k]).h δ := rfl
      rw [hget k hk hk'] at hp hp' hδ ⊢
      have hp : p ∈ Set.Icc (P.secs[k]).min (P.secs[k]).max := hp
      have hp' : p' ∈ Set.Icc (P.secs[k]).min (P.secs[k]).max := hp'
      have hδ : clip (P.secs[k]).h δ = p' - p := hδ
      have hd1 := diag_step (by rw [hh _ hs]; linarith [hlt _ hs]) (hT k hk') hd δ
      rw [hδ] at hd1
      have closed := fun j => sol_closed (hsol k hk' j) hp hp'
      have hd2 : (((P.secs[k]).toG n).propagateDelta Yn.reverse E useH st.1 δ).IsDiag (fun j => y j p') (fun j => dy j p') := by
        have e1 : (fun j => y j p') = fun j => Eta.eta 0 ((p' - p) * (p' - p) * (v k j - E)) * y j p + (p' - p) * Eta.eta 1 ((p' - p) * (p' - p) * (v k j - E)) * dy j p := by
          funext j; exact (closed j).1
        have e2 : (fun j => dy j p') = fun j => (v k j - E) * (p' - p) * Eta.eta 1 ((p' - p) * (p' - p) * (v k j - E)) * y j p + Eta.eta 0 ((p' - p) * (p' - p) * (v k j - E)) * dy j p := by
          funext j; exact (closed j).2
        rw [e1, e2]
        exact hd1
      refine ⟨hd2, ?_⟩
      have inc := inc_diag (P.secs[k]).h (v k) E δ hd hd2 (fun j => hne j p (hdom p hp)) (fun j => hne j p' (hdom p' hp'))
      rw [← e, hδ] at inc
      rw [show incs exactEta P v k E st.1 (((P.secs[k]).toG n).propagateDelta Yn.reverse E useH st.1 δ) δ
        = argInc exactEta (P.secs[k]).h (v k) E st.1 (((P.secs[k]).toG n).propagateDelta Yn.reverse E useH st.1 δ) δ by
          simp only [incs, List.getElem?_eq_getElem hk']]
      rw [inc, he]
      have sub : Set.uIcc p (p + (p' - p)) ⊆ Set.Icc (P.secs[k]).min (P.secs[k]).max := by
        rw [show p + (p' - p) = p' by ring]
        exact Set.uIcc_subset_Icc hp hp'
      have comp : ∀ j, 2 * turn (v k j - E) (p' - p) + (posArg (cay (y j p') (dy j p')) -
          posArg (cay ((p' - p) * Eta.eta 1 ((p' - p) * (p' - p) * (v k j - E))) (Eta.eta 0 ((p' - p) * (p' - p) * (v k j - E))) * cay (y j p) (dy j p))) = 2 * (φ j p' - φ j p) := by
        intro j
        have z : Eta.eta 0 0 = 1 := by simp [Eta.eta_zero_right, Eta.oddFact]
        have ep : solY (v k j - E) p (y j p) (dy j p) p = y j p ∧ solD (v k j - E) p (y j p) (dy j p) p = dy j p := by
          constructor <;> simp [solY, solD, z]
        have c := comp_step (sol_const (v k j - E) p (y j p) (dy j p)) (p := p) (d := p' - p) (φ := φ j) (by rw [ep.1, ep.2]; exact hne j p (hdom p hp))
          ((hc j).mono (fun x hx => hdom x (sub hx)))
          (fun x hx => by
            have := sol_closed (hsol k hk' j) hp (sub hx)
            rw [← this.1, ← this.2]
            exact hang j x (hdom x (sub hx)))
        rw [ep.1, ep.2, show p + (p' - p) = p' by ring, ← (closed j).1, ← (closed j).2] at c
        exact c
      rw [Finset.sum_congr rfl (fun j _ => comp j), ← Finset.mul_sum, ← mul_add, ← Finset.sum_add_distrib]
      refine congrArg (2 * ·) ?_
      refine Finset.sum_congr rfl fun j _ => ?_
      ring) ha hb (y := u) ⟨hu, by simp⟩
  exact ⟨r, hr, hq⟩

/-! ### The property fails when the eigenbasis is ordered differently -/
open Verif.MFormulas

/-- Two uncoupled equations on one sector `[0, 1]`: potentials `0` and `-π²`. -/
noncomputable def permC : ℕ → Mat 2 ℝ := fun k => if k = 0 then Matrix.diagonal ![0, -(pi * pi)] else 0
/-- Eigenvectors in the order of increasing eigenvalues, as `SelfAdjointEigenSolver` returns them. -/
def permQ : Mat 2 ℝ := !![0, 1; 1, 0]
def permSec : Sec ℝ := ⟨0, 1, .forward⟩
noncomputable def permP : CProb 2 ℝ := problemM 0 MTerm.lit exactEta (fun _ => permC) (fun _ => permQ) [permSec] 0 1
/-- The values of the exact solutions `1` and `sin (πx) / π` at `0`: Neumann and Dirichlet start. -/
def permU : Yn 2 2 ℝ := ⟨Matrix.fromRows (Matrix.diagonal ![1, 0]) (Matrix.diagonal ![0, 1]), 0⟩

theorem permQ_diag : Diagonalizes permQ (permC 0) ∧ permQ.transpose * permC 0 * permQ = Matrix.diagonal ![-(pi * pi), 0] := by
  have e : permQ.transpose * permC 0 * permQ = Matrix.diagonal ![-(pi * pi), 0] := by
    ext i j
    fin_cases i <;> fin_cases j <;> simp [permQ, permC, Matrix.mul_apply, Fin.sum_univ_two]
  refine ⟨⟨?_, ?_⟩, e⟩
  · ext i j
    fin_cases i <;> fin_cases j <;> simp [permQ, Matrix.mul_apply, Fin.sum_univ_two]
  · rw [e]; exact Matrix.isDiag_diagonal _

theorem permV0 : diagV0 (fun _ => permC) (fun _ => permQ) [permSec] 0 = ![-(pi * pi), 0] := by
  funext j
  simp only [diagV0, List.getElem?_cons_zero, mkMSec, permQ_diag.2, permSec]
  simp

theorem single_sector {S : Type} {rev : S → S} {dArg : ℕ → ℝ → S → S → ℝ → ℝ} (s : GSec ℝ S) (h0 : s.min = 0) (h1 : s.max = 1) (hd : s.dir = .forward) (E : ℝ) (useH : Bool) (u : S) :
    (GProb.mk [s] 0 1).propagate rev dArg E u 0 1 useH = .ok (s.propagateDelta rev E useH u 1, dArg 0 E u (s.propagateDelta rev E useH u 1) 1) := by
  have hm : IsMesh (GProb.mk [s] (0 : ℝ) 1).mesh 0 1 :=
    { tiling := { nonempty := by simp [GProb.mesh, bounds], first := by simp [GProb.mesh, bounds, h0], last := by simp [GProb.mesh, bounds, h1], joined := by simp [GProb.mesh, bounds] }
      ordered := by simp [GProb.mesh, h0, h1] }
  obtain ⟨i, j, hi, hj, hf, -, -, -, -, he⟩ := walkG_closed hm 0 1 (by simp [Mesh.domainContains]) (by simp [Mesh.domainContains])
  have hi0 : i = 0 := by simpa [GProb.mesh] using hi
  have hj0 : j = 0 := by simpa [GProb.mesh] using hj
  subst hi0 hj0
  have h2 := he (S × ℝ) ((GProb.mk [s] (0 : ℝ) 1).bodyArg rev dArg E useH 0 1) (u, 0)
  have e : Mesh.domainContains (0 : ℝ) 1 0 = true ∧ Mesh.domainContains (0 : ℝ) 1 1 = true := by simp [Mesh.domainContains]
  unfold GProb.propagate
  rw [hf, Outcome.bind_ok]
  rw [show (GProb.mk [s] (0 : ℝ) 1).mesh.length = [s].length by simp [GProb.mesh]] at h2
  simp only [e.1, e.2, Bool.not_true, Bool.or_self, Bool.false_eq_true, if_false, h2]
  simp [visited, GProb.bodyArg, GSec.propagateArg, h0, h1, hd]

/-- the exact solutions of the two equations -/
noncomputable def permY : Fin 2 → ℝ → ℝ := ![fun _ => 1, fun x => sin (pi * x) / pi]
noncomputable def permD : Fin 2 → ℝ → ℝ := ![fun _ => 0, fun x => cos (pi * x)]

theorem perm_solves (j : Fin 2) : SolvesOn (fun _ => ![0, -(pi * pi)] j) 0 0 1 (permY j) (permD j) := by
  have hp := Real.pi_ne_zero
  fin_cases j
  · constructor
    · intro x _
      simpa [permY, permD] using (hasDerivAt_const x (1 : ℝ)).hasDerivWithinAt
    · intro x _
      simpa [permY, permD] using (hasDerivAt_const x (0 : ℝ)).hasDerivWithinAt
  · have hl : ∀ x, HasDerivAt (fun x => pi * x) pi x := fun x => ((hasDerivAt_id x).const_mul pi).congr_deriv (by simp)
    constructor
    · intro x _
      have := (((Real.hasDerivAt_sin (pi * x)).comp x (hl x)).div_const pi).hasDerivWithinAt (s := Set.Icc 0 1)
      refine (this.congr_deriv ?_)
      simp [permD, hp]
    · intro x _
      have := ((Real.hasDerivAt_cos (pi * x)).comp x (hl x)).hasDerivWithinAt (s := Set.Icc 0 1)
      refine (this.congr_deriv ?_)
      simp [permY]
      field_simp

theorem perm_conj (d : Fin 2 → ℝ) : permQ * Matrix.diagonal d * permQ.transpose = Matrix.diagonal ![d 1, d 0] := by
  ext i j
  rw [Matrix.mul_apply, Fin.sum_univ_two, Matrix.mul_diagonal, Matrix.mul_diagonal]
  fin_cases i <;> fin_cases j <;> simp [permQ]

theorem perm_T (δ : ℝ) (useH : Bool) (k : ℕ) (hk : k < permP.secs.length) : ((permP.secs[k]).tr 0 δ useH).t = diagT (fun j => ![0, -(pi * pi)] j - 0) δ := by
  have hk0 : k = 0 := by simpa [permP, problemM] using hk
  subst hk0
  have hQ' := mul_eq_one_comm.mp permQ_diag.1.orth
  have e : ((sectorM 0 MTerm.lit exactEta permC permQ permSec).tr 0 δ useH).t = conT permQ ![-(pi * pi), 0] δ := by
    refine conT_eq permQ _ δ _ ?_
    rw [NP.const_T lit_one (s := mkMSec permC permQ permSec) hQ' (by
      intro k hk
      simp [mkMSec, permC, hk])]
    congr 2
    funext j
    have := congrFun permV0 j
    simp only [diagV0, List.getElem?_cons_zero] at this
    simp only [vedOf, this, sub_zero]
  show ((sectorM 0 MTerm.lit exactEta permC permQ permSec).tr 0 δ useH).t = _
  rw [e]
  unfold conT diagT
  simp only [Matrix.fromBlocks_multiply, Matrix.zero_mul, Matrix.mul_zero, add_zero, zero_add, sub_zero, perm_conj]
  congr 1 <;> (congr 1; funext j; fin_cases j <;> simp)

theorem perm_vals : posArg (cay 0 (-1) * cay 1 0) = pi ∧ posArg (cay 1 1 * cay 0 1) = pi / 2 ∧ posArg (cay 1 1 * cay 1 0) = 3 * pi / 2 ∧ posArg (cay 0 (-1) * cay 0 1) = 2 * pi := by
  have hp := Real.pi_pos
  have c1 : cay 0 (-1) = 1 := by simp [cay]
  have c2 : cay 1 0 = -1 := by
    simp [cay]
  have c3 : cay 0 1 = 1 := by simp [cay]
  have c4 : cay 1 1 = Complex.I := by
    unfold cay
    have h : (1 : ℂ) - Complex.I ≠ 0 := by
      intro h
      have := congrArg Complex.im h
      simp at this
    push_cast
    rw [mul_one, div_eq_iff h, mul_sub, Complex.I_mul_I]
    ring
  refine ⟨?_, ?_, ?_, ?_⟩
  · rw [c1, c2, one_mul, posArg, Complex.arg_neg_one, if_neg (by linarith)]
  · rw [c4, c3, mul_one, posArg, Complex.arg_I, if_neg (by linarith)]
  · rw [c4, c2, mul_neg_one, posArg, Complex.arg_neg_I, if_pos (by linarith)]; ring
  · rw [c1, c3, one_mul, posArg, Complex.arg_one, if_pos le_rfl]; ring

/-- **C109 fails when the eigenbasis is ordered differently** (`propagateDelta` multiplies the diagonal matrix of the eigenbasis with `Θ` in the original basis). Two uncoupled equations with
potentials `0` and `-π²` on one sector; the eigenvectors sorted by eigenvalue, as the library computes them; exact transfer matrices. `propagate` returns the exact block, but the angle is
`2π` too large, whatever continuous angles `φ` of the two solutions it is compared with. -/
theorem C109_wrong_when_basis_permuted : Diagonalizes permQ (permC 0) ∧ (∀ i j, i ≤ j → (permQ.transpose * permC 0 * permQ) i i ≤ (permQ.transpose * permC 0 * permQ) j j) ∧
    (∀ j, SolvesOn (fun _ => permC 0 j j) 0 0 1 (permY j) (permD j)) ∧ permU.IsDiag (fun j => permY j 0) (fun j => permD j 0) ∧
    ∃ r : Yn 2 2 ℝ × ℝ, permP.propagate (incs exactEta permP (diagV0 (fun _ => permC) (fun _ => permQ) [permSec])) 0 permU 0 1 = .ok r ∧
      r.1.IsDiag (fun j => permY j 1) (fun j => permD j 1) ∧
      ∀ φ : Fin 2 → ℝ → ℝ, (∀ j, ContinuousOn (φ j) (Set.Icc 0 1)) → (∀ j, ∀ x ∈ Set.Icc (0 : ℝ) 1, IsAngle (φ j x) (permY j x) (permD j x)) →
        r.2 = 2 * ∑ j, (φ j 1 - φ j 0) + 2 * pi := by
  have hp := Real.pi_pos
  have hU : permU.IsDiag (fun j => permY j 0) (fun j => permD j 0) := by
    have e1 : (fun j => permY j 0) = ![1, 0] := by funext j; fin_cases j <;> simp [permY]
    have e2 : (fun j => permD j 0) = ![0, 1] := by funext j; fin_cases j <;> simp [permD]
    rw [isDiag_iff, e1, e2]
    rfl
  refine ⟨permQ_diag.1, ?_, ?_, hU, ?_⟩
  · rw [permQ_diag.2]
    intro i j hij
    fin_cases i <;> fin_cases j <;> simp at hij ⊢
    positivity
  · intro j
    have := perm_solves j
    fin_cases j <;> simpa [permC] using this
  have hne : ∀ j, ∀ x ∈ Set.Icc (0 : ℝ) 1, ¬ (permY j x = 0 ∧ permD j x = 0) := by
    intro j x _
    fin_cases j
    · simp [permY]
    · simp only [permY, permD]
      rintro ⟨h1, h2⟩
      have := Real.sin_sq_add_cos_sq (pi * x)
      have h1 : sin (pi * x) / pi = 0 := h1
      have h2 : cos (pi * x) = 0 := h2
      rw [div_eq_zero_iff] at h1
      have h1 := h1.resolve_right hp.ne'
      rw [h1, h2] at this; norm_num at this
  have hP : permP.toG 2 = GProb.mk [(sectorM 0 MTerm.lit exactEta permC permQ permSec).toG 2] 0 1 := rfl
  have hr := fun dArg => single_sector (rev := Yn.reverse) (dArg := dArg) ((sectorM 0 MTerm.lit exactEta permC permQ permSec).toG 2) rfl rfl rfl 0 true permU
  have hd1 := diag_step (s := sectorM 0 MTerm.lit exactEta permC permQ permSec) (E := 0) (useH := true) (q := fun j => ![0, -(pi * pi)] j - 0)
    (by norm_num [sectorM, permSec]) (fun δ _ _ => perm_T δ true 0 (by simp [permP, problemM])) hU 1
  obtain ⟨y1, hy1⟩ : ∃ y1, y1 = GSec.propagateDelta Yn.reverse ((sectorM 0 MTerm.lit exactEta permC permQ permSec).toG 2) 0 true permU 1 := ⟨_, rfl⟩
  rw [← hy1] at hd1
  have ec : clip (sectorM 0 MTerm.lit exactEta permC permQ permSec).h 1 = 1 := by norm_num [clip, sectorM, permSec]
  have en : Eta.eta 0 (-(pi * pi)) = -1 ∧ Eta.eta 1 (-(pi * pi)) = 0 := by
    have a := eta0_cos pi 1
    have b := eta1_sin pi 1
    simp only [mul_one, one_mul, Real.cos_pi, Real.sin_pi] at a b
    exact ⟨a, (mul_eq_zero.mp b).resolve_left hp.ne'⟩
  have ez : Eta.eta 0 0 = 1 ∧ Eta.eta 1 0 = 1 := by constructor <;> simp [Eta.eta_zero_right, Eta.oddFact]
  have hd2 : y1.IsDiag (fun j => permY j 1) (fun j => permD j 1) := by
    rw [ec] at hd1
    convert hd1 using 2 with j j
    · fin_cases j <;> simp [permY, permD, en, ez]
    · fin_cases j <;> simp [permY, permD, en, ez]
  refine ⟨(y1, incs exactEta permP (diagV0 (fun _ => permC) (fun _ => permQ) [permSec]) 0 0 permU y1 1), ?_, hd2, ?_⟩
  · rw [hy1]
    exact hr _
  intro φ hc hang
  obtain ⟨r, hr1, -, hr2⟩ := C109_decoupled_exact_partial (P := permP) (E := 0) (useH := true) (v := fun _ => ![0, -(pi * pi)]) (y := permY) (dy := permD) (φ := φ)
    ⟨{ nonempty := by simp [permP, problemM, CProb.mesh, bounds], first := by simp [permP, problemM, CProb.mesh, bounds, sectorM, permSec],
       last := by simp [permP, problemM, CProb.mesh, bounds, sectorM, permSec], joined := by simp [permP, problemM, CProb.mesh, bounds] },
      by simp [permP, problemM, CProb.mesh, sectorM, permSec]⟩
    (by simp [permP, problemM, sectorM, permSec]) (by simp [permP, problemM, sectorM, permSec]) (by simp [permP, problemM, sectorM, permSec])
    (fun k hk δ _ _ => perm_T δ true k hk)
    (fun k hk j => by
      have hk0 : k = 0 := by simpa [permP, problemM] using hk
      subst hk0
      exact perm_solves j) hne hc hang (a := 0) (b := 1) (by simp [permP, problemM]) (by simp [permP, problemM]) hU
  have hr3 : (CProb.propagate permP (incs exactEta permP fun _ => ![0, -(pi * pi)]) 0 permU 0 1 true) = .ok (y1, incs exactEta permP (fun _ => ![0, -(pi * pi)]) 0 0 permU y1 1) := by
    rw [hy1]
    exact hr _
  rw [hr3] at hr1
  have hr4 : r = (y1, incs exactEta permP (fun _ => ![0, -(pi * pi)]) 0 0 permU y1 1) := (Outcome.ok.inj hr1).symm
  rw [← hr2, hr4]
  have i1 : ∀ v : ℕ → Fin 2 → ℝ, incs exactEta permP v 0 0 permU y1 1 = argInc exactEta 1 (v 0) 0 permU y1 1 := by
    intro v
    have : (sectorM 0 MTerm.lit exactEta permC permQ permSec).h = 1 := by norm_num [sectorM, permSec]
    rw [← this]
    rfl
  have i2 := fun v0 => inc_diag 1 v0 0 1 hU hd2 (fun j => hne j 0 (by simp)) (fun j => hne j 1 (by simp))
  have e1 : clipD 1 1 = 1 := by norm_num [clipD]
  simp only
  rw [i1, i1, i2, i2, permV0, e1, Fin.sum_univ_two, Fin.sum_univ_two]
  obtain ⟨p1, p2, p3, p4⟩ := perm_vals
  simp only [permY, permD, Matrix.cons_val_zero, Matrix.cons_val_one, mul_one, one_mul, sub_zero, en.1, en.2, ez.1, ez.2, mul_zero, Real.sin_zero, zero_div, Real.cos_zero]
  rw [p1, p2, p3, p4]
  ring

/-! ### A concrete case of the two theorems: `y'' = -y` on two sectors, forward and backward -/

def sinSecs : List (Sec ℝ) := [⟨0, 2, .forward⟩, ⟨2, 5, .backward⟩]
noncomputable def sinP : CProb 1 ℝ := problemM 0 MTerm.lit exactEta (fun _ _ => 0) (fun _ => 1) sinSecs 0 5

theorem sin_mesh : IsMesh sinP.mesh sinP.xmin sinP.xmax := by
  have e : sinP.mesh = sinSecs := rfl
  rw [e]
  refine ⟨⟨by simp [sinSecs, bounds], by simp [sinSecs, bounds, sinP, problemM], by simp [sinSecs, bounds, sinP, problemM], ?_⟩, ?_⟩
  · intro i hi
    have : i = 0 := by simp [sinSecs, bounds] at hi; omega
    subst this
    left; simp [sinSecs, bounds]
  · intro s hs
    simp only [sinSecs, List.mem_cons, List.not_mem_nil, or_false] at hs
    rcases hs with rfl | rfl <;> norm_num

theorem sin_mem {c : CSec 1 ℝ} (hc : c ∈ sinP.secs) : ∃ s ∈ sinSecs, c = sectorM 0 MTerm.lit exactEta (fun _ => 0) 1 s := by
  simp only [sinP, problemM, List.mem_map] at hc
  obtain ⟨s, h1, rfl⟩ := hc
  exact ⟨s, h1, rfl⟩

theorem sin_T (s : Sec ℝ) (δ : ℝ) (useH : Bool) : ((sectorM 0 MTerm.lit exactEta (fun _ => 0) (1 : Mat 1 ℝ) s).tr 1 δ useH).t = diagT (fun _ => (0 : ℝ) - 1) δ := by
  have e : ((sectorM 0 MTerm.lit exactEta (fun _ => 0) (1 : Mat 1 ℝ) s).tr 1 δ useH).t = conT 1 (fun _ => (0 : ℝ) - 1) δ := by
    refine conT_eq 1 _ δ _ ?_
    rw [NP.const_T lit_one (s := mkMSec (fun _ => 0) (1 : Mat 1 ℝ) s) (by simp [mkMSec]) (by intro k _; simp [mkMSec])]
    congr 2
    funext j
    simp [vedOf, mkMSec]
  rw [e, conT, Matrix.transpose_one, Matrix.fromBlocks_one, Matrix.one_mul, Matrix.mul_one]

theorem sin_solves (a b : ℝ) : SolvesOn (fun _ => 0) 1 a b sin cos where
  d1 x _ := (Real.hasDerivAt_sin x).hasDerivWithinAt
  d2 x _ := by simpa using (Real.hasDerivAt_cos x).hasDerivWithinAt

def sinU : Yn 1 1 ℝ := ⟨Matrix.fromRows (Matrix.diagonal fun _ => 0) (Matrix.diagonal fun _ => 1), 0⟩

theorem sin_exact {x : ℝ} (hx : sinP.xmin ≤ x ∧ x ≤ sinP.xmax) (useH : Bool) : ∃ r : Yn 1 1 ℝ × ℝ, sinP.propagate (incs exactEta sinP fun _ _ => 0) 1 sinU 0 x useH = .ok r ∧
    r.1.IsDiag (fun _ => sin x) (fun _ => cos x) ∧ r.2 = 2 * x := by
  have hlt : ∀ s ∈ sinSecs, s.min < s.max ∧ (s.dir = .forward ∨ s.dir = .backward) := by
    intro s hs
    simp only [sinSecs, List.mem_cons, List.not_mem_nil, or_false] at hs
    rcases hs with rfl | rfl <;> norm_num
  obtain ⟨r, h1, h2, h3⟩ := C109_decoupled_exact_partial (P := sinP) (E := 1) (useH := useH) (v := fun _ _ => 0) (y := fun _ => sin) (dy := fun _ => cos) (φ := fun _ x => x) sin_mesh
    (fun c hc => by obtain ⟨s, hs, rfl⟩ := sin_mem hc; exact (hlt s hs).1) (fun c hc => by obtain ⟨s, hs, rfl⟩ := sin_mem hc; rfl)
    (fun c hc => by obtain ⟨s, hs, rfl⟩ := sin_mem hc; exact (hlt s hs).2)
    (fun k hk δ _ _ => by
      obtain ⟨s, hs, e⟩ := sin_mem (List.getElem_mem hk)
      rw [e]
      exact sin_T s δ useH)
    (fun k hk j => sin_solves _ _)
    (fun j x _ h => by have := Real.sin_sq_add_cos_sq x; rw [h.1, h.2] at this; norm_num at this) (fun j => continuousOn_id) (fun j x _ => by
      show sin x * cos x = cos x * sin x
      ring) (a := 0) (b := x) (by simp [sinP, problemM]) hx (u := sinU)
    (by rw [isDiag_iff, Real.sin_zero, Real.cos_zero]; rfl)
  refine ⟨r, h1, h2, ?_⟩
  rw [h3]
  simp

/-- `C109_decoupled_exact_partial` at work: over five radians, across a backward sector. -/
example : ∃ r, sinP.propagate (incs exactEta sinP fun _ _ => 0) 1 sinU 0 5 = .ok r ∧ r.2 = 10 := by
  obtain ⟨r, h1, -, h3⟩ := sin_exact (x := 5) (by simp [sinP, problemM]) true
  exact ⟨r, h1, by rw [h3]; norm_num⟩

/-- The hypotheses of `C109_argument_mod_two_pi_partial` hold. -/
example : ∃ r : Yn 1 1 ℝ × ℝ, sinP.propagate (incs exactEta sinP fun _ _ => 0) 1 sinU 0 5 = .ok r ∧ Complex.exp (Complex.I * (r.2 : ℝ)) * (theta sinU).det = (theta r.1).det := by
  have hlt : ∀ s ∈ sinSecs, s.min < s.max ∧ (s.dir = .forward ∨ s.dir = .backward) := by
    intro s hs
    simp only [sinSecs, List.mem_cons, List.not_mem_nil, or_false] at hs
    rcases hs with rfl | rfl <;> norm_num
  have g : sinP.Good 1 true :=
    { mesh := sin_mesh
      lt := fun c hc => by obtain ⟨s, hs, rfl⟩ := sin_mem hc; exact (hlt s hs).1
      h_eq := fun c hc => by obtain ⟨s, hs, rfl⟩ := sin_mem hc; rfl
      dir := fun c hc => by obtain ⟨s, hs, rfl⟩ := sin_mem hc; exact (hlt s hs).2
      inv := fun c hc δ _ _ => by
        obtain ⟨s, hs, rfl⟩ := sin_mem hc
        rw [sin_T]
        exact Matrix.isUnit_det_of_left_inverse (diagT_neg_mul _ δ) }
  obtain ⟨r, h1, h2, -, -, h3⟩ := C109_argument_mod_two_pi_partial g (fun _ _ => 0) sinU (a := 0) (b := 5) (by simp [sinP, problemM]) (by simp [sinP, problemM])
    (fun x h0 h1 u hu => by
      obtain ⟨r, k1, k2, -⟩ := sin_exact ⟨h0, h1⟩ true
      have := C57_propagate_values Yn.reverse (incs exactEta sinP fun _ _ => 0) (sinP.toG 1) 1 sinU 0 x true
      have k1 : (sinP.toG 1).propagate Yn.reverse (incs exactEta sinP fun _ _ => 0) 1 sinU 0 x true = .ok r := k1
      have hu : (sinP.toG 1).propagateColumn Yn.reverse 1 sinU 0 x true = .ok u := hu
      rw [k1, hu] at this
      have hru : r.1 = u := Outcome.ok.inj this
      rw [hru] at k2
      have e1 : u.derC + Complex.I • u.valC = fun _ _ => Complex.exp (x * Complex.I) := by
        funext i j
        have a := congrFun (congrFun k2.1 i) j
        have b := congrFun (congrFun k2.2 i) j
        rw [Subsingleton.elim i j, Matrix.diagonal_apply_eq] at a b
        simp only [Yn.val, Yn.der, Matrix.of_apply] at a b
        rw [Subsingleton.elim i j]
        simp only [Yn.valC, Yn.derC, Matrix.add_apply, Matrix.smul_apply, Matrix.of_apply, smul_eq_mul]
        rw [Complex.exp_mul_I]
        push_cast [a, b]
        rw [mul_comm]
      rw [Matrix.det_fin_one, e1]
      exact Complex.exp_ne_zero _)
  exact ⟨r, h1, h3⟩

end Verif.Matscs
