import Verif.Props.LiouvillePieces

/-!
# C132: what the adaptive Liouville construction guarantees when it finishes

The construction halves pieces until a piece and its two halves agree. Here the acceptance test is compared with a specification in terms
of integrals, and every pair of neighbouring pieces of the result is shown to come from a passed test.
-/
namespace Verif.Liouville
open Verif.Poly

/-! ## Specification -/

/-- `full` approximates `exact` up to `tol`, relatively for large values and absolutely for small ones. -/
def Close (tol full exact : ℝ) : Prop := |exact - full| < tol * max 1 |exact|

/-- The mean of `x ↦ r(x)` over the piece by the 12-point rule on `[0, 1]`. -/
noncomputable def meanR (pc : Piece ℝ) : ℝ :=
  ∑ j ∈ Finset.range 12, (Legendre.weight 12 0 j : ℝ) * pc.x2r (1 / 2 + Legendre.node 12 j / 2)

/-- A piece agrees with its two halves: its `x`-end, the integral of `x` over `r`, that of `r` over `x` (the class scales this one by
one half), that of `p·w` over `x`, and the growth of `p·w`. -/
def Agrees (full left right : Piece ℝ) : Prop :=
  Close (1 / 10 ^ 14) full.xmax right.xmax ∧
  (let I : Piece ℝ → ℝ := fun pc => (pc.rmax - pc.rmin) * ∫ t in (0 : ℝ)..1, eval pc.r2x t
   Close (1 / 10 ^ 14) (I full) (I left + I right)) ∧
  (let I : Piece ℝ → ℝ := fun pc => (pc.xmax - pc.xmin) * meanR pc / 2
   Close (1 / 10 ^ 14) (I full) (I left + I right)) ∧
  (let I : Piece ℝ → ℝ := fun pc => (pc.xmax - pc.xmin) * ∫ t in (0 : ℝ)..1, eval pc.pwx t
   Close (1 / 10 ^ 14) (I full) (I left + I right)) ∧
  (let G : Piece ℝ → ℝ := fun pc => eval pc.pwx 1 - eval pc.pwx 0
   Close (1 / 10 ^ 12) (G full) (G left + G right))

/-- `pc` is the freshly built piece of its `r`-interval, moved so that its `x`-interval starts at `pc.xmin`. -/
def Placed (sqrt P W : ℝ → ℝ) (pc : Piece ℝ) : Prop :=
  let f := mkPiece sqrt P W pc.rmin pc.rmax
  pc.xmax = pc.xmin + f.xmax ∧ (∀ t, eval pc.r2x t = pc.xmin + eval f.r2x t) ∧ pc.p = f.p ∧ pc.w = f.w ∧ pc.pwx = f.pwx

/-- `left`, `right` are the halves of `full`: they split its `r`-interval in the middle, and their `x`-intervals start where that of
`full` starts. -/
def Halves (full left right : Piece ℝ) : Prop :=
  left.rmin = full.rmin ∧ left.rmax = (full.rmin + full.rmax) / 2 ∧ right.rmin = (full.rmin + full.rmax) / 2 ∧
  right.rmax = full.rmax ∧ left.xmin = full.xmin ∧ right.xmin = left.xmax

/-! ## The test -/

theorem absK_real (x : ℝ) : Eta.absK x = |x| := by
  unfold Eta.absK
  simp only [ccmp_lt, decide_eq_true_eq]
  split_ifs with h
  · exact (abs_of_neg h).symm
  · exact (abs_of_nonneg (not_lt.mp h)).symm

theorem rel_error (exact estimate tol : ℝ) : relError exact estimate < tol ↔ Close tol estimate exact := by
  unfold relError Close
  simp only [absK_real, ccmp_lt, ccmp_lit, Bool.or_eq_true, decide_eq_true_eq]
  push_cast
  split_ifs with h
  · have h1 : 1 < |exact| := by
      rcases h with h | h
      · exact lt_of_lt_of_le h (le_abs_self _)
      · exact lt_of_lt_of_le (by linarith) (neg_le_abs exact)
    rw [abs_div, div_lt_iff₀ (by linarith), max_eq_right h1.le]
  · have h1 : |exact| ≤ 1 := by
      push Not at h
      exact abs_le.mpr ⟨h.2, h.1⟩
    rw [max_eq_left h1, mul_one]

theorem mean_eq (pc : Piece ℝ) : Legendre.integrate 12 (fun j => pc.x2r (Legendre.samplePoint 12 0 1 j)) 0 *
    Legendre.halfWidth 0 1 * (pc.xmax - pc.xmin) = (pc.xmax - pc.xmin) * meanR pc / 2 := by
  rw [Legendre.integrate_eq (by norm_num), meanR]
  have e : ∀ j, (Legendre.samplePoint 12 0 1 j : ℝ) = 1 / 2 + Legendre.node 12 j / 2 := fun j => by
    simp [Legendre.samplePoint, Legendre.halfWidth]
    ring
  have e2 : (Legendre.halfWidth 0 1 : ℝ) = 1 / 2 := by simp [Legendre.halfWidth]
  simp only [e, e2]
  ring

/-- **C132, the test.** A round accepts a piece exactly if it is shorter than `1e-8` in `x` or agrees with its halves. -/
theorem C132_accept (full left right : Piece ℝ) :
    accept full left right = true ↔ full.xmax - full.xmin < 1 / 10 ^ 8 ∨ Agrees full left right := by
  have c : ∀ (f g : Piece ℝ → ℝ) (tol : ℝ), (∀ pc, f pc = g pc) →
      (pieceError f full left right < tol ↔ Close tol (g full) (g left + g right)) := fun f g tol e => by
    rw [pieceError, rel_error, e, e, e]
  unfold accept Agrees
  simp only [Bool.or_eq_true, Bool.and_eq_true, ccmp_lt, ccmp_lit, decide_eq_true_eq, rel_error]
  push_cast
  rw [c _ (fun pc => (pc.rmax - pc.rmin) * ∫ t in (0 : ℝ)..1, eval pc.r2x t) _ (fun pc => by rw [C44_integral_value]; ring),
    c _ (fun pc => (pc.xmax - pc.xmin) * meanR pc / 2) _ mean_eq,
    c _ (fun pc => (pc.xmax - pc.xmin) * ∫ t in (0 : ℝ)..1, eval pc.pwx t) _ (fun pc => by rw [C44_integral_value]; ring),
    c (fun p => eval p.pwx 1 - eval p.pwx 0) (fun p => eval p.pwx 1 - eval p.pwx 0) _ (fun _ => rfl)]
  simp only [and_assoc]

/-! ## The construction -/

theorem fresh_placed (sqrt P W : ℝ → ℝ) (a b : ℝ) : Placed sqrt P W (mkPiece sqrt P W a b) := by
  have h : (mkPiece sqrt P W a b).xmin = 0 := rfl
  refine ⟨?_, fun t => ?_, rfl, rfl, rfl⟩
  · rw [h, zero_add]; rfl
  · rw [h, zero_add]; rfl

theorem set_placed {sqrt P W : ℝ → ℝ} {pc : Piece ℝ} (x : ℝ) (h : Placed sqrt P W pc) :
    Placed sqrt P W (setXMin pc x) ∧ (setXMin pc x).xmin = x := by
  obtain ⟨h1, h2, h3, h4, h5⟩ := h
  unfold setXMin
  simp only [ccmp_eq, decide_eq_true_eq]
  split
  · next e => exact ⟨⟨h1, h2, h3, h4, h5⟩, e.symm⟩
  · refine ⟨⟨?_, fun t => ?_, h3, h4, h5⟩, rfl⟩
    · show pc.xmax + (x - pc.xmin) = x + _
      rw [h1]; ring
    · show eval (addScalar pc.r2x (x - pc.xmin)) t = x + _
      rw [(C43_scalar pc.r2x (x - pc.xmin) t).2.2.2.1, h2]; ring

/-- **C132.** Whenever the construction finishes, its pieces are consecutive pairs of halves `left`, `right` of a piece `full` that
was accepted: all three are the freshly built pieces of their `r`-intervals, placed in `x`, and either `full` is shorter than `1e-8`
in `x` or it agrees with its halves. -/
theorem C132_pieces (sqrt P W : ℝ → ℝ) (fuel : ℕ) (rmin rmax : ℝ) (ps : List (Piece ℝ))
    (h : constructPiecewise (mkPiece sqrt P W) accept fuel rmin rmax = .ok ps) :
    ∃ rounds : List (Piece ℝ × Piece ℝ × Piece ℝ), ps = rounds.flatMap (fun t => [t.2.1, t.2.2]) ∧
      ∀ t ∈ rounds, Placed sqrt P W t.1 ∧ Placed sqrt P W t.2.1 ∧ Placed sqrt P W t.2.2 ∧ Halves t.1 t.2.1 t.2.2 ∧
        (t.1.xmax - t.1.xmin < 1 / 10 ^ 8 ∨ Agrees t.1 t.2.1 t.2.2) := by
  have key : ∀ (fuel : ℕ) (toDo pieces : List (Piece ℝ)) (xMin : ℝ) (res : List (Piece ℝ)), (∀ pc ∈ toDo, Placed sqrt P W pc) →
      constructLoop (mkPiece sqrt P W) accept fuel toDo pieces xMin = .ok res →
      ∃ rounds : List (Piece ℝ × Piece ℝ × Piece ℝ), res = pieces ++ rounds.flatMap (fun t => [t.2.1, t.2.2]) ∧
        ∀ t ∈ rounds, Placed sqrt P W t.1 ∧ Placed sqrt P W t.2.1 ∧ Placed sqrt P W t.2.2 ∧ Halves t.1 t.2.1 t.2.2 ∧
          (t.1.xmax - t.1.xmin < 1 / 10 ^ 8 ∨ Agrees t.1 t.2.1 t.2.2) := by
    intro fuel
    induction fuel with
    | zero =>
      intro toDo pieces xMin res _ h
      cases toDo with
      | nil => simp only [constructLoop, Outcome.ok.injEq] at h; exact ⟨[], by simp [h], by simp⟩
      | cons t ts => simp [constructLoop] at h
    | succ fuel ih =>
      intro toDo pieces xMin res hp h
      cases toDo with
      | nil => simp only [constructLoop, Outcome.ok.injEq] at h; exact ⟨[], by simp [h], by simp⟩
      | cons top ts =>
        simp only [constructLoop] at h
        obtain ⟨ht, hts⟩ := List.forall_mem_cons.mp hp
        have n1 := set_placed xMin ht
        set next := setXMin top xMin
        have em : (next.rmin + next.rmax) / CCmp.lit 2 = (next.rmin + next.rmax) / 2 := by simp
        rw [em] at h
        have el := setXMin_r (mkPiece sqrt P W next.rmin ((next.rmin + next.rmax) / 2)) xMin
        have l1 := set_placed xMin (fresh_placed sqrt P W next.rmin ((next.rmin + next.rmax) / 2))
        set left := setXMin (mkPiece sqrt P W next.rmin ((next.rmin + next.rmax) / 2)) xMin
        have er := setXMin_r (mkPiece sqrt P W ((next.rmin + next.rmax) / 2) next.rmax) left.xmax
        have r1 := set_placed left.xmax (fresh_placed sqrt P W ((next.rmin + next.rmax) / 2) next.rmax)
        set right := setXMin (mkPiece sqrt P W ((next.rmin + next.rmax) / 2) next.rmax) left.xmax
        split at h
        · next ha =>
          obtain ⟨rounds, e, hr⟩ := ih ts (pieces ++ [left, right]) right.xmax res hts h
          refine ⟨(next, left, right) :: rounds, by rw [e]; simp, List.forall_mem_cons.mpr ⟨?_, hr⟩⟩
          exact ⟨n1.1, l1.1, r1.1, ⟨el.1, el.2, er.1, er.2, by rw [l1.2, n1.2], r1.2⟩, (C132_accept _ _ _).mp ha⟩
        · exact ih (left :: right :: ts) pieces xMin res
            (List.forall_mem_cons.mpr ⟨l1.1, List.forall_mem_cons.mpr ⟨r1.1, hts⟩⟩) h
  obtain ⟨rounds, e, hr⟩ := key fuel [mkPiece sqrt P W rmin rmax] [] 0 ps
    (by intro pc hpc; obtain rfl := List.mem_singleton.mp hpc; exact fresh_placed sqrt P W rmin rmax) h
  exact ⟨rounds, by simpa using e, hr⟩

/-- The hypothesis is met: for `p = w = 1` on `[0, 1]` the construction finishes. -/
example : ∃ fuel ps, constructPiecewise (mkPiece Real.sqrt (fun _ => 1) (fun _ => 1)) accept fuel 0 1 = .ok ps :=
  C45_terminates (by norm_num) continuousOn_const continuousOn_const (by simp) (by simp)

/-- Both sides of the test occur: a piece of `x`-length 1 whose halves add up is accepted, one whose right half ends elsewhere is not. -/
example : Close (1 / 10 ^ 14) 1 1 ∧ ¬ Close (1 / 10 ^ 14) 1 (1 + 1 / 10 ^ 13) := by
  unfold Close
  constructor
  · norm_num
  · rw [abs_of_nonneg (by norm_num : (0:ℝ) ≤ 1 + 1 / 10 ^ 13 - 1), abs_of_nonneg (by norm_num : (0:ℝ) ≤ 1 + 1 / 10 ^ 13)]
    norm_num

end Verif.Liouville
