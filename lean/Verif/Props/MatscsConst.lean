import Verif.Lemmas.MatscsConstStep
import Verif.Props.Matscs
import Verif.Props.MatscsConverge

/-!
# Piecewise constant coupled potentials are solved exactly (C110)
-/
namespace Verif.Matscs
open Verif.MFormulas Verif.YT Verif.NP Verif.Mesh Verif.Spec

variable {n r : ℕ}

theorem lit_one : (MTerm.lit ⟨10, 1, []⟩ : ℝ) = 1 := by norm_num [MTerm.lit]

/-- A sector of a constant potential takes exact solutions to exact solutions. -/
theorem const_sector {c : ℕ → Mat n ℝ} {Q : Mat n ℝ} (hQ : Diagonalizes Q (c 0)) (hc : ∀ k, k ≠ 0 → c k = 0) {s : Sec ℝ} (hlt : s.min ≤ s.max) {E : ℝ} {useH : Bool}
    {y dy : ℝ → Matrix (Fin n) (Fin r) ℝ} (hs : MSolvesOn (fun _ => c 0) E s.min s.max y dy) {p p' δ : ℝ} (hp : p ∈ Set.Icc s.min s.max) (hp' : p' ∈ Set.Icc s.min s.max)
    (hδ : clip (s.max - s.min) δ = p' - p) (u : Yn n r ℝ) (hu : Holds u.y (y p) (dy p)) :
    Holds (((sectorM 0 MTerm.lit exactEta c Q s).toG r).propagateDelta Yn.reverse E useH u δ).y (y p') (dy p') := by
  have hQ' := mul_eq_one_comm.mp hQ.orth
  obtain ⟨l, hl⟩ : ∃ l : Fin n → ℝ, Q.transpose * c 0 * Q = Matrix.diagonal l := ⟨_, (hQ.diag.diagonal_diag).symm⟩
  have hv0 : ∀ k, k ≠ 0 → (mkMSec c Q s).vs k = 0 := by
    intro k hk
    simp only [mkMSec, hc k hk, Matrix.mul_zero, Matrix.zero_mul, smul_zero]
  have hvd : (mkMSec c Q s).vs 0 = Matrix.diagonal l := by
    simp [mkMSec, hl]
  have hT : ∀ δ, ((sectorM 0 MTerm.lit exactEta c Q s).tr E δ useH).t = conT Q (fun j => l j - E) δ := by
    intro δ
    refine conT_eq Q _ δ _ ?_
    rw [const_T lit_one (s := mkMSec c Q s) hQ' hv0]
    congr 2
    funext j
    simp [vedOf, hvd]
  have hst := group_step (r := r) (s := sectorM 0 MTerm.lit exactEta c Q s) (show (0 : ℝ) ≤ s.max - s.min by linarith) hT (conT_inv hQ' _) (conT_rev Q _) u δ
  have hu' : u.y = Matrix.fromRows (y p) (dy p) := by
    ext i j
    rcases i with i | i
    · exact (hu i j).1
    · exact (hu i j).2
  have hst : (((sectorM 0 MTerm.lit exactEta c Q s).toG r).propagateDelta Yn.reverse E useH u δ).y = conT Q (fun j => l j - E) (clip (s.max - s.min) δ) * u.y := hst
  rw [hst, hδ, hu', ← conT_exact hQ.orth hl hs hp hp']
  intro i j
  exact ⟨rfl, rfl⟩

/-- **C110.** On every mesh of `[dmin, dmax]`, for a symmetric matrix potential that is constant on every sector (the Legendre coefficients are `vs s 0` and zeros, `Q s`
diagonalizes `vs s 0`), exact η functions and the literals of the source: `propagateColumn` from any `a` to any `b`, with any number of columns and in either direction, takes the exact values of
every solution at `a` to the exact values at `b`. No step size restriction. -/
theorem C110_piecewise_constant_exact {vs : Sec ℝ → ℕ → Mat n ℝ} {Q : Sec ℝ → Mat n ℝ} {secs : List (Sec ℝ)} {dmin dmax E : ℝ} {useH : Bool}
    (hm : IsMesh secs dmin dmax) (hdir : ∀ s ∈ secs, s.dir ≠ .none) (hc : ∀ s ∈ secs, ∀ k, k ≠ 0 → vs s k = 0)
    (hQ : ∀ s ∈ secs, Diagonalizes (Q s) (vs s 0)) {y dy : ℝ → Matrix (Fin n) (Fin r) ℝ} (hs : MSolvesMesh (fun s _ => vs s 0) E secs y dy)
    {a b : ℝ} (ha : a ∈ Set.Icc dmin dmax) (hb : b ∈ Set.Icc dmin dmax) {u : Yn n r ℝ} (hu : Holds u.y (y a) (dy a)) :
    ∃ res, (problemM 0 MTerm.lit exactEta vs Q secs dmin dmax).propagateColumn E u a b useH = .ok res ∧ Holds res.y (y b) (dy b) := by
  obtain ⟨P, hP⟩ : ∃ P, P = problemM 0 MTerm.lit exactEta vs Q secs dmin dmax := ⟨_, rfl⟩
  have hsecs : P.secs = secs.map (fun s => sectorM 0 MTerm.lit exactEta (vs s) (Q s) s) := by rw [hP]; rfl
  have hmesh : (P.toG r).mesh = secs := by
    rw [P.toG_mesh]
    unfold CProb.mesh
    rw [hsecs, List.map_map]
    exact (List.map_congr_left (fun s _ => rfl)).trans (List.map_id _)
  have hmem : ∀ c ∈ (P.toG r).secs, ∃ s ∈ secs, c = (sectorM 0 MTerm.lit exactEta (vs s) (Q s) s).toG r := by
    intro c hc
    simp only [CProb.toG, List.mem_map, hsecs] at hc
    obtain ⟨c', ⟨s, hs', rfl⟩, rfl⟩ := hc
    exact ⟨s, hs', rfl⟩
  have hx : (P.toG r).xmin = dmin ∧ (P.toG r).xmax = dmax := by rw [hP]; exact ⟨rfl, rfl⟩
  obtain ⟨res, hr, hq⟩ := arg_trace (rev := Yn.reverse) (dArg := fun _ _ _ _ _ => 0) (P := P.toG r) (E := E) (useH := useH) (Q := fun p st => Holds st.1.y (y p) (dy p))
    (by rw [hmesh, hx.1, hx.2]; exact hm) (fun c hc => by obtain ⟨s, _, rfl⟩ := hmem c hc; rfl)
    (fun c hc => by
      obtain ⟨s, hs', rfl⟩ := hmem c hc
      have := hdir s hs'
      show s.dir = .forward ∨ s.dir = .backward
      cases h : s.dir <;> simp_all)
    (by
      intro k hk p p' δ st hp hp' hδ _ hst
      obtain ⟨s, hs', he⟩ := hmem _ (List.getElem_mem hk)
      rw [he] at hp hp' hδ ⊢
      exact const_sector (hQ s hs') (hc s hs') (le_trans hp.1 hp.2) (hs s hs') hp hp' hδ st.1 hst) (by rw [hx.1, hx.2]; exact ha) (by rw [hx.1, hx.2]; exact hb) (y := u) hu
  refine ⟨res.1, ?_, hq⟩
  have := C57_propagate_values Yn.reverse (fun _ _ _ _ _ => (0 : ℝ)) (P.toG r) E u a b useH
  rw [hr] at this
  rw [← hP]
  exact this.symm

/-! ### A concrete case: a potential that jumps from `[[0, 1], [1, 0]]` to the identity, solution `e^x (1, 1)` -/

def jumpSecs : List (Sec ℝ) := [⟨0, 1, .forward⟩, ⟨1, 3, .backward⟩]
noncomputable def jumpV (s : Sec ℝ) (k : ℕ) : Mat 2 ℝ := if k = 0 then (if s.min = 0 then !![0, 1; 1, 0] else 1) else 0
noncomputable def jumpQ (s : Sec ℝ) : Mat 2 ℝ := if s.min = 0 then !![√2 / 2, √2 / 2; √2 / 2, -(√2 / 2)] else 1

theorem jump_mesh : IsMesh jumpSecs 0 3 := by
  refine ⟨⟨by simp [jumpSecs, bounds], by simp [jumpSecs, bounds], by simp [jumpSecs, bounds], ?_⟩, ?_⟩
  · intro i hi
    have : i = 0 := by simp [jumpSecs, bounds] at hi; omega
    subst this
    left; simp [jumpSecs, bounds]
  · intro s hs
    simp only [jumpSecs, List.mem_cons, List.not_mem_nil, or_false] at hs
    rcases hs with rfl | rfl <;> norm_num

example : ∃ res, (problemM 0 MTerm.lit exactEta jumpV jumpQ jumpSecs 0 3).propagateColumn 0 (⟨fun _ _ => 1, 0⟩ : Yn 2 1 ℝ) 0 (5 / 2) true = .ok res ∧
    ∀ i, res.y i 0 = Real.exp (5 / 2) := by
  have h2 : √2 / 2 * (√2 / 2) = (1 : ℝ) / 2 := by
    rw [div_mul_div_comm, Real.mul_self_sqrt (by norm_num)]; norm_num
  obtain ⟨res, h1, h3⟩ := C110_piecewise_constant_exact (r := 1) (vs := jumpV) (Q := jumpQ) (E := 0) (useH := true) jump_mesh
    (by intro s hs; simp only [jumpSecs, List.mem_cons, List.not_mem_nil, or_false] at hs; rcases hs with rfl | rfl <;> simp)
    (by intro s _ k hk; simp [jumpV, hk])
    (by
      intro s hs
      simp only [jumpSecs, List.mem_cons, List.not_mem_nil, or_false] at hs
      rcases hs with rfl | rfl
      · simp only [jumpV, jumpQ, if_true]
        constructor
        · ext i j
          fin_cases i <;> fin_cases j <;> simp [Matrix.mul_apply, Fin.sum_univ_two, h2] <;> norm_num
        · intro i j hij
          fin_cases i <;> fin_cases j <;> simp [Matrix.mul_apply, Fin.sum_univ_two] at hij ⊢
      · simp only [jumpV, jumpQ, if_true, one_ne_zero, if_false]
        refine ⟨by simp, ?_⟩
        simp)
    (y := fun x => Matrix.of fun _ _ => Real.exp x) (dy := fun x => Matrix.of fun _ _ => Real.exp x)
    (by
      intro s hs
      refine ⟨fun x _ i j => (Real.hasDerivAt_exp x).hasDerivWithinAt, fun x _ i j => ?_⟩
      refine (Real.hasDerivAt_exp x).hasDerivWithinAt.congr_deriv ?_
      rw [zero_smul, sub_zero, Matrix.mul_apply, Fin.sum_univ_two]
      simp only [jumpSecs, List.mem_cons, List.not_mem_nil, or_false] at hs
      rcases hs with rfl | rfl <;> fin_cases i <;> simp [jumpV] <;> exact Matrix.one_apply_eq _)
    (a := 0) (b := 5 / 2) (by norm_num) (by norm_num) (u := ⟨fun _ _ => 1, 0⟩) (by intro i j; simp)
  refine ⟨res, h1, ?_⟩
  intro i
  rcases i with i | i
  · exact (h3 i 0).1
  · exact (h3 i 0).2

end Verif.Matscs
