import Verif.Props.LiouvilleLookup
import Verif.Props.LiouvilleForm

/-!
# The Sturm-Liouville front end: C50 (whole problem), C82
-/
namespace Verif

instance : LawfulMonad Outcome := LawfulMonad.mk'
  (id_map := fun x => by cases x <;> rfl)
  (pure_bind := fun _ _ => rfl)
  (bind_assoc := fun x _ _ => by cases x <;> rfl)

end Verif

namespace Verif.Liouville
open Verif.Poly Verif.YT

/-- **C50, the whole problem.** For pieces tiling `[rmin, rmax]`, `SturmLiouville::eigenvaluesByIndex` asks the Schrödinger solver
for the same indices, with the left condition transformed on the first piece at its left end and the right condition
transformed on the last piece at its right end. -/
theorem C50_problem {R : Type} (solve : Int → Int → Y ℝ → Y ℝ → Outcome R) (Imin Imax : Int) (left right : Y ℝ) {rmin rmax : ℝ}
    {ps : List (Piece ℝ)} (hne : ps ≠ []) (ht : Tiles Piece.rmin Piece.rmax rmin ps rmax) (hpos : ∀ pc ∈ ps, pc.rmin < pc.rmax) :
    slEigenvaluesByIndex Real.sqrt ps rmin rmax solve Imin Imax left right =
      solve Imin Imax (pieceZ2Y Real.sqrt (ps.head hne) 0 left) (pieceZ2Y Real.sqrt (ps.getLast hne) 1 right) := by
  have hlen : 0 < ps.length := List.length_pos_iff.mpr hne
  obtain ⟨i, hi, h1, h2, h3, h4, h5, h6⟩ := C47_findPiece hne ht hpos rmin
  obtain ⟨j, hj, k1, k2, k3, k4, k5, k6⟩ := C47_findPiece hne ht hpos rmax
  have e0 : ps[0].rmin = rmin := by
    cases ps with
    | nil => exact absurd rfl hne
    | cons p l => exact ht.1
  have hlt : rmin < rmax := by
    have h0 := hpos _ (List.getElem_mem hlen)
    have := tiles_mono ht hpos j hj 0 (Nat.zero_le _)
    have := k4 rfl
    linarith
  have hi0 : i = 0 := by
    rcases Nat.eq_zero_or_pos i with h | h
    · exact h
    · exfalso
      have g := (tiles_get ht i hi).2.1 h
      have := tiles_mono ht hpos (i - 1) (by omega) 0 (Nat.zero_le _)
      have := hpos _ (List.getElem_mem hlen)
      have := h2 le_rfl
      linarith
  have hjl : j = ps.length - 1 := by have := k6 le_rfl; omega
  subst hi0
  have n0 : (ps[0]).normR rmin = 0 := by unfold Piece.normR; rw [e0]; simp
  have n1 : (ps[j]).normR rmax = 1 := by
    unfold Piece.normR
    rw [k4 rfl]
    exact div_self (sub_pos.mpr (hpos _ (List.getElem_mem hj))).ne'
  have hl : ps.getLast hne = ps[j] := by rw [List.getLast_eq_getElem]; congr 1; omega
  have hh : ps.head hne = ps[0] := List.head_eq_getElem hne
  simp only [slEigenvaluesByIndex, z2y, h1, k1, Outcome.bind_ok, Outcome.pure_eq, n0, n1, hl, hh]

theorem findPiece_ok {ps : List (Piece ℝ)} (hne : ps ≠ []) {lo hi : Piece ℝ → ℝ} {a b : ℝ} (ht : Tiles lo hi a ps b)
    (hpos : ∀ pc ∈ ps, lo pc < hi pc) (v : ℝ) : ∃ pc, findPiece ps hi v = .ok pc := by
  obtain ⟨i, h, h1, -⟩ := C47_findPiece hne ht hpos v
  exact ⟨_, h1⟩

/-- **C82.** Evaluating an eigenfunction of a Sturm-Liouville problem on an array of points gives exactly the values of the
single-point evaluation, in order, provided the underlying Schrödinger eigenfunction does so. -/
theorem C82_array {ps : List (Piece ℝ)} (hne : ps ≠ []) {rmin rmax xmin xmax : ℝ}
    (hr : Tiles Piece.rmin Piece.rmax rmin ps rmax) (hrp : ∀ pc ∈ ps, pc.rmin < pc.rmax)
    (hx : Tiles Piece.xmin Piece.xmax xmin ps xmax) (hxp : ∀ pc ∈ ps, pc.xmin < pc.xmax)
    (ef : ℝ → Outcome (ℝ × ℝ)) (efA : List ℝ → Outcome (List (ℝ × ℝ))) (hA : ∀ xs, efA xs = xs.mapM ef) (rs : List ℝ) :
    slEigenfunctionArray Real.sqrt ps efA rs = rs.mapM (slEigenfunction Real.sqrt ps ef) := by
  have h1 : ∀ r, ∃ x, r2x ps r = .ok x := by
    intro r
    obtain ⟨pc, h⟩ := findPiece_ok hne hr hrp r
    exact ⟨_, by rw [r2x, h]; rfl⟩
  have h2 : ∀ x (y : Y ℝ), ∃ z, y2z Real.sqrt ps x y = .ok z := by
    intro x y
    obtain ⟨pc, h⟩ := findPiece_ok hne hx hxp x
    exact ⟨_, by rw [y2z, h]; rfl⟩
  choose X hX using h1
  choose Z hZ using h2
  have e1 : ∀ rs : List ℝ, rs.mapM (fun r => r2x ps r) = .ok (rs.map X) := by
    intro rs
    induction rs with
    | nil => rfl
    | cons r rs ih => rw [List.mapM_cons, hX, ih]; rfl
  have e2 : ∀ l : List (ℝ × (ℝ × ℝ)), l.mapM (fun p => do
      let z ← y2z Real.sqrt ps p.1 ⟨p.2.1, p.2.2, 0, 0⟩
      return (z.y, z.dy)) = (.ok (l.map fun p => ((Z p.1 ⟨p.2.1, p.2.2, 0, 0⟩).y, (Z p.1 ⟨p.2.1, p.2.2, 0, 0⟩).dy)) : Outcome _) := by
    intro l
    induction l with
    | nil => rfl
    | cons p l ih => rw [List.mapM_cons, hZ, ih]; rfl
  have e3 : ∀ r, slEigenfunction Real.sqrt ps ef r = (do
      let p ← ef (X r)
      return ((Z (X r) ⟨p.1, p.2, 0, 0⟩).y, (Z (X r) ⟨p.1, p.2, 0, 0⟩).dy)) := by
    intro r
    rw [slEigenfunction, hX]
    simp only [Outcome.bind_ok, hZ]
  unfold slEigenfunctionArray
  rw [e1]
  simp only [Outcome.bind_ok, hA, e2]
  induction rs with
  | nil => rfl
  | cons r rs ih =>
    rw [List.mapM_cons, ← ih, e3, List.map_cons, List.mapM_cons]
    cases ef (X r) with
    | ok p =>
      simp only [Outcome.bind_ok, Outcome.pure_eq]
      cases (List.map X rs).mapM ef with
      | ok l => rfl
      | throws => rfl
      | ub => rfl
      | timeout => rfl
    | throws => rfl
    | ub => rfl
    | timeout => rfl

/-- Two pieces with different coefficients meet the hypotheses. -/
example : let ps : List (Piece ℝ) := [slopePiece, ⟨1, 3, 1, 2, ⟨fun i => if i = 1 then 1 else 0⟩, ofList 8 [2, 1], ofList 8 [2, 1], ofList 10 [2, 1]⟩]
    ps ≠ [] ∧ Tiles Piece.rmin Piece.rmax 0 ps 3 ∧ (∀ pc ∈ ps, pc.rmin < pc.rmax) ∧ Tiles Piece.xmin Piece.xmax 0 ps 2 ∧
      (∀ pc ∈ ps, pc.xmin < pc.xmax) := by
  refine ⟨by simp, ⟨rfl, rfl, rfl⟩, ?_, ⟨rfl, rfl, rfl⟩, ?_⟩ <;>
  · intro pc hpc
    simp only [List.mem_cons, List.not_mem_nil, or_false] at hpc
    rcases hpc with rfl | rfl <;> norm_num [slopePiece]

end Verif.Liouville
