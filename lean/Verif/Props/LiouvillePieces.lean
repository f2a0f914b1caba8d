import Verif.Model.Liouville
import Verif.Props.Poly
import Verif.Props.Legendre
import Mathlib.Tactic.Linarith
import Mathlib.Tactic.Positivity

/-!
# Liouville transformation, the pieces: C45, C46, C47
-/
namespace Verif.Liouville
open Verif.Poly

/-! ## Specification -/

/-- The intervals `[lo p, hi p]` of the listed pieces follow each other without gap or overlap from `a` to `b`. -/
def Tiles {K : Type} (lo hi : Piece K → K) : K → List (Piece K) → K → Prop
  | a, [], b => a = b
  | a, p :: ps, b => lo p = a ∧ Tiles lo hi (hi p) ps b

theorem Tiles.append {K : Type} {lo hi : Piece K → K} : ∀ {a m b : K} {ps qs : List (Piece K)},
    Tiles lo hi a ps m → Tiles lo hi m qs b → Tiles lo hi a (ps ++ qs) b
  | _, _, _, [], _, h, h' => by simp only [Tiles] at h; subst h; exact h'
  | _, _, _, _ :: _, _, h, h' => ⟨h.1, Tiles.append h.2 h'⟩

/-! ## C45 -/

section lawfree
variable {K : Type} [Add K] [Sub K] [Mul K] [Div K] [Neg K] [Zero K] [One K] [NatCast K] [CCmp K]

theorem setXMin_r (pc : Piece K) (x : K) : (setXMin pc x).rmin = pc.rmin ∧ (setXMin pc x).rmax = pc.rmax := by
  unfold setXMin; split <;> exact ⟨rfl, rfl⟩

theorem loop_r {mk : K → K → Piece K} (hmk : ∀ a b, (mk a b).rmin = a ∧ (mk a b).rmax = b)
    {acc : Piece K → Piece K → Piece K → Bool} {a b : K} : ∀ {fuel : Nat} {toDo pieces : List (Piece K)} {xMin m : K} {res},
    Tiles Piece.rmin Piece.rmax a pieces m → Tiles Piece.rmin Piece.rmax m toDo b → (toDo = [] → pieces ≠ []) →
    constructLoop mk acc fuel toDo pieces xMin = .ok res → Tiles Piece.rmin Piece.rmax a res b ∧ res ≠ [] := by
  intro fuel
  induction fuel with
  | zero =>
    intro toDo pieces xMin m res h1 h2 hne h
    cases toDo with
    | nil =>
      simp only [constructLoop, Outcome.ok.injEq] at h
      subst h
      simp only [Tiles] at h2; subst h2
      exact ⟨h1, hne rfl⟩
    | cons t ts => simp [constructLoop] at h
  | succ fuel ih =>
    intro toDo pieces xMin m res h1 h2 hne h
    cases toDo with
    | nil =>
      simp only [constructLoop, Outcome.ok.injEq] at h
      subst h
      simp only [Tiles] at h2; subst h2
      exact ⟨h1, hne rfl⟩
    | cons t ts =>
      simp only [constructLoop] at h
      have e1 := setXMin_r t xMin
      set next := setXMin t xMin
      set mid := (next.rmin + next.rmax) / CCmp.lit 2
      have el := setXMin_r (mk next.rmin mid) xMin
      set left := setXMin (mk next.rmin mid) xMin
      have er := setXMin_r (mk mid next.rmax) left.xmax
      set right := setXMin (mk mid next.rmax) left.xmax
      have hl1 : left.rmin = m := by rw [el.1, (hmk _ _).1, e1.1]; exact h2.1
      have hl2 : left.rmax = mid := by rw [el.2, (hmk _ _).2]
      have hr1 : right.rmin = mid := by rw [er.1, (hmk _ _).1]
      have hr2 : right.rmax = t.rmax := by rw [er.2, (hmk _ _).2, e1.2]
      split at h
      · refine ih (m := t.rmax) (Tiles.append h1 ?_) h2.2 (by simp) h
        exact ⟨hl1, by rw [hr1, hl2], hr2⟩
      · have h3 : Tiles Piece.rmin Piece.rmax m (left :: right :: ts) b := ⟨hl1, by rw [hr1, hl2], by rw [hr2]; exact h2.2⟩
        exact ih (m := m) h1 h3 (by simp) h

/-- **C45, r-coordinates, every arithmetic (floating point and NaN included).** Whenever the construction finishes, and
whatever the acceptance tests answered, the pieces follow each other without gap from `rmin` to `rmax` (every end of a piece is
the same stored number as the start of the next), and there is at least one. -/
theorem C45_r_tiling (sqrt P W : K → K) (acc : Piece K → Piece K → Piece K → Bool) (fuel : Nat) (rmin rmax : K) (ps : List (Piece K))
    (h : constructPiecewise (mkPiece sqrt P W) acc fuel rmin rmax = .ok ps) :
    Tiles Piece.rmin Piece.rmax rmin ps rmax ∧ ps ≠ [] := by
  have hmk : ∀ a b : K, (mkPiece sqrt P W a b).rmin = a ∧ (mkPiece sqrt P W a b).rmax = b := fun _ _ => ⟨rfl, rfl⟩
  have h2 : Tiles Piece.rmin Piece.rmax rmin [mkPiece sqrt P W rmin rmax] rmax := ⟨rfl, rfl⟩
  exact loop_r hmk (m := rmin) (pieces := []) rfl h2 (by simp) h

end lawfree

section exact
variable {K : Type} [Field K] [LinearOrder K] [IsStrictOrderedRing K]

/-- A piece whose polynomial starts at `xmin` and ends at `xmax`. -/
def EndsFit (pc : Piece K) : Prop := eval pc.r2x 0 = pc.xmin ∧ eval pc.r2x 1 = pc.xmax

theorem setXMin_x (pc : Piece K) (x : K) (h : EndsFit pc) :
    (setXMin pc x).xmin = x ∧ EndsFit (setXMin pc x) ∧ (setXMin pc x).xmax - x = pc.xmax - pc.xmin := by
  unfold setXMin
  simp only [ccmp_eq, decide_eq_true_eq]
  split
  · next hx => exact ⟨hx.symm, h, by rw [hx]⟩
  · refine ⟨rfl, ⟨?_, ?_⟩, by ring⟩
    · have := (C43_scalar pc.r2x (x - pc.xmin) 0).2.2.2.1
      show eval (addScalar pc.r2x (x - pc.xmin)) 0 = x
      rw [this, h.1]; ring
    · have := (C43_scalar pc.r2x (x - pc.xmin) 1).2.2.2.1
      show eval (addScalar pc.r2x (x - pc.xmin)) 1 = pc.xmax + (x - pc.xmin)
      rw [this, h.2]

theorem mkPiece_ends (sqrt P W : K → K) (a b : K) : (mkPiece sqrt P W a b).xmin = 0 ∧ EndsFit (mkPiece sqrt P W a b) := by
  refine ⟨rfl, ?_, rfl⟩
  have h := fun d : Poly K 7 => (C43_scalar (integral d) (b - a) 0).2.1.trans
    (by rw [(C44_integral_overloads _ _).1, (C44_integral_overloads _ 0).2, zero_mul])
  exact h _

/-- everything but the r-tiling, for a piece constructor whose pieces fit -/
theorem loop_x {mk : K → K → Piece K} (hmk : ∀ a b, (mk a b).rmin = a ∧ (mk a b).rmax = b ∧ EndsFit (mk a b))
    {acc : Piece K → Piece K → Piece K → Bool} : ∀ {fuel : Nat} {toDo pieces : List (Piece K)} {xMin : K} {res},
    Tiles Piece.xmin Piece.xmax 0 pieces xMin → (∀ pc ∈ pieces, EndsFit pc ∧ pc.rmin < pc.rmax ∧
        pc.xmax - pc.xmin = (mk pc.rmin pc.rmax).xmax - (mk pc.rmin pc.rmax).xmin) →
      (∀ pc ∈ toDo, EndsFit pc ∧ pc.rmin < pc.rmax) →
    constructLoop mk acc fuel toDo pieces xMin = .ok res →
    (∃ X, Tiles Piece.xmin Piece.xmax 0 res X) ∧ ∀ pc ∈ res, EndsFit pc ∧ pc.rmin < pc.rmax ∧
        pc.xmax - pc.xmin = (mk pc.rmin pc.rmax).xmax - (mk pc.rmin pc.rmax).xmin := by
  intro fuel
  induction fuel with
  | zero =>
    intro toDo pieces xMin res h1 h2 h3 h
    cases toDo with
    | nil =>
      simp only [constructLoop, Outcome.ok.injEq] at h
      subst h; exact ⟨⟨_, h1⟩, h2⟩
    | cons t ts => simp [constructLoop] at h
  | succ fuel ih =>
    intro toDo pieces xMin res h1 h2 h3 h
    cases toDo with
    | nil =>
      simp only [constructLoop, Outcome.ok.injEq] at h
      subst h; exact ⟨⟨_, h1⟩, h2⟩
    | cons t ts =>
      simp only [constructLoop] at h
      obtain ⟨ht, hts⟩ := List.forall_mem_cons.mp h3
      have e1 := setXMin_r t xMin
      set next := setXMin t xMin
      set mid : K := (next.rmin + next.rmax) / CCmp.lit 2 with hmid
      have hm1 : next.rmin < mid := by
        rw [hmid]; have := ht.2; rw [← e1.1, ← e1.2] at this; simp only [ccmp_lit]; push_cast; linarith
      have hm2 : mid < next.rmax := by
        rw [hmid]; have := ht.2; rw [← e1.1, ← e1.2] at this; simp only [ccmp_lit]; push_cast; linarith
      have el := setXMin_r (mk next.rmin mid) xMin
      have xl := setXMin_x (mk next.rmin mid) xMin (hmk _ _).2.2
      set left := setXMin (mk next.rmin mid) xMin
      have er := setXMin_r (mk mid next.rmax) left.xmax
      have xr := setXMin_x (mk mid next.rmax) left.xmax (hmk _ _).2.2
      set right := setXMin (mk mid next.rmax) left.xmax
      rw [(hmk _ _).1, (hmk _ _).2.1] at el er
      have hl : EndsFit left ∧ left.rmin < left.rmax := ⟨xl.2.1, by rw [el.1, el.2]; exact hm1⟩
      have hr : EndsFit right ∧ right.rmin < right.rmax := ⟨xr.2.1, by rw [er.1, er.2]; exact hm2⟩
      split at h
      · refine ih (Tiles.append h1 ?_) ?_ hts h
        · exact ⟨xl.1, xr.1, rfl⟩
        · intro pc hpc
          rcases List.mem_append.mp hpc with hpc | hpc
          · exact h2 pc hpc
          · rcases List.mem_cons.mp hpc with rfl | hpc
            · refine ⟨hl.1, hl.2, ?_⟩
              rw [el.1, el.2, xl.1]; exact xl.2.2
            · rcases List.mem_cons.mp hpc with rfl | hpc
              · refine ⟨hr.1, hr.2, ?_⟩
                rw [er.1, er.2, xr.1]; exact xr.2.2
              · simp at hpc
      · exact ih h1 h2 (List.forall_mem_cons.mpr ⟨hl, List.forall_mem_cons.mpr ⟨hr, hts⟩⟩) h

/-- **C45.** If the construction finishes — whatever the acceptance tests answered — the pieces tile `[rmin, rmax]` in `r` and
`[0, X]` in `x`; every piece has positive length in `r`, and its map `r2x` takes the piece's left end to `xmin` and its right end
to `xmax`, so that the maps of neighbouring pieces agree where they meet. -/
theorem C45_tiling (sqrt P W : K → K) (acc : Piece K → Piece K → Piece K → Bool) (fuel : Nat) {rmin rmax : K} (hr : rmin < rmax)
    (ps : List (Piece K)) (h : constructPiecewise (mkPiece sqrt P W) acc fuel rmin rmax = .ok ps) :
    ps ≠ [] ∧ Tiles Piece.rmin Piece.rmax rmin ps rmax ∧ (∃ X, Tiles Piece.xmin Piece.xmax 0 ps X) ∧
    ∀ pc ∈ ps, pc.rmin < pc.rmax ∧ eval pc.r2x 0 = pc.xmin ∧ eval pc.r2x 1 = pc.xmax := by
  obtain ⟨h1, h2⟩ := C45_r_tiling sqrt P W acc fuel rmin rmax ps h
  obtain ⟨h3, h4⟩ := loop_x (mk := mkPiece sqrt P W) (fun a b => ⟨rfl, rfl, (mkPiece_ends sqrt P W a b).2⟩) (pieces := []) (xMin := 0)
    rfl (by simp) (by
      intro pc hpc
      obtain rfl := List.mem_singleton.mp hpc
      exact ⟨(mkPiece_ends sqrt P W rmin rmax).2, hr⟩) h
  exact ⟨h2, h1, h3, fun pc hpc => ⟨(h4 pc hpc).2.1, (h4 pc hpc).1.1, (h4 pc hpc).1.2⟩⟩

/-! ### Termination -/

/-- The code accepts every piece whose x-width is below `1e-8`; so if `x` does not grow faster than `M` per
unit of `r` on short subintervals, the construction finishes. -/
theorem terminates_of_growth [Archimedean K] (sqrt P W : K → K) {rmin rmax M δ : K} (hM : 0 < M) (hδ : 0 < δ) (hr : rmin < rmax)
    (hgrow : ∀ a b, rmin ≤ a → a < b → b ≤ rmax → b - a ≤ δ → (mkPiece sqrt P W a b).xmax ≤ M * (b - a)) :
    ∃ fuel ps, constructPiecewise (mkPiece sqrt P W) accept fuel rmin rmax = .ok ps := by
  -- only pieces produced by the loop occur; carry their growth bound along
  set ℓ : K := min δ (1 / (2 * 10 ^ 8 * M)) with hℓ
  have hℓ0 : 0 < ℓ := lt_min hδ (by positivity)
  have key : ∀ (d : Nat) (t : Piece K), EndsFit t → t.rmin < t.rmax → rmin ≤ t.rmin → t.rmax ≤ rmax →
      (t.rmax - t.rmin ≤ δ → t.xmax - t.xmin ≤ M * (t.rmax - t.rmin)) →
      t.rmax - t.rmin ≤ ℓ * 2 ^ d → ∀ (rest pieces : List (Piece K)) (x : K),
      ∃ n pieces' x', ∀ m, constructLoop (mkPiece sqrt P W) accept (n + m) (t :: rest) pieces x =
        constructLoop (mkPiece sqrt P W) accept m rest pieces' x' := by
    intro d
    induction d with
    | zero =>
      intro t hf hlt hin1 hin2 hg ht rest pieces x
      have e := setXMin_x t x hf
      set next := setXMin t x with hnext
      set mid : K := (next.rmin + next.rmax) / CCmp.lit 2 with hmid
      set left := setXMin (mkPiece sqrt P W next.rmin mid) x with hleft
      set right := setXMin (mkPiece sqrt P W mid next.rmax) left.xmax with hright
      have step : ∀ m, constructLoop (mkPiece sqrt P W) accept (m + 1) (t :: rest) pieces x =
          if accept next left right then constructLoop (mkPiece sqrt P W) accept m rest (pieces ++ [left, right]) right.xmax
          else constructLoop (mkPiece sqrt P W) accept m (left :: right :: rest) pieces x := fun m => by rw [constructLoop]
      have ht1 : t.rmax - t.rmin ≤ ℓ := by rw [pow_zero, mul_one] at ht; exact ht
      have : next.xmax - next.xmin < 1 / 10 ^ 8 := by
        rw [e.1, e.2.2]
        have h1 : M * (t.rmax - t.rmin) ≤ M * (1 / (2 * 10 ^ 8 * M)) := by
          refine mul_le_mul_of_nonneg_left ?_ hM.le
          exact ht1.trans (min_le_right _ _)
        have hg := hg (ht1.trans (min_le_left _ _))
        have h2 : M * (1 / (2 * 10 ^ 8 * M)) = 1 / (2 * 10 ^ 8) := by field_simp
        have h3 : (1 : K) / (2 * 10 ^ 8) < 1 / 10 ^ 8 := by norm_num
        linarith
      have ha : accept next left right = true := by
        simp only [accept, ccmp_lt, ccmp_lit, Bool.or_eq_true, decide_eq_true_eq]
        left; push_cast; exact this
      exact ⟨1, _, _, fun m => by rw [Nat.add_comm, step, if_pos ha]⟩
    | succ d ih =>
      intro t hf hlt hin1 hin2 hg ht rest pieces x
      have e := setXMin_r t x
      set next := setXMin t x with hnext
      set mid : K := (next.rmin + next.rmax) / CCmp.lit 2 with hmid
      have hm : mid = (next.rmin + next.rmax) / 2 := by rw [hmid]; simp
      rw [← e.1, ← e.2] at hlt
      have hm1 : next.rmin < mid := by rw [hm]; linarith
      have hm2 : mid < next.rmax := by rw [hm]; linarith
      have el := setXMin_r (mkPiece sqrt P W next.rmin mid) x
      have xl := setXMin_x (mkPiece sqrt P W next.rmin mid) x (mkPiece_ends _ _ _ _ _).2
      set left := setXMin (mkPiece sqrt P W next.rmin mid) x with hleft
      have er := setXMin_r (mkPiece sqrt P W mid next.rmax) left.xmax
      have xr := setXMin_x (mkPiece sqrt P W mid next.rmax) left.xmax (mkPiece_ends _ _ _ _ _).2
      set right := setXMin (mkPiece sqrt P W mid next.rmax) left.xmax with hright
      have rl : left.rmin = next.rmin ∧ left.rmax = mid := el
      have rr : right.rmin = mid ∧ right.rmax = next.rmax := er
      have step : ∀ m, constructLoop (mkPiece sqrt P W) accept (m + 1) (t :: rest) pieces x =
          if accept next left right then constructLoop (mkPiece sqrt P W) accept m rest (pieces ++ [left, right]) right.xmax
          else constructLoop (mkPiece sqrt P W) accept m (left :: right :: rest) pieces x := fun m => by rw [constructLoop]
      have ht' : next.rmax - next.rmin ≤ ℓ * 2 ^ (d + 1) := by rw [e.1, e.2]; exact ht
      rw [pow_succ] at ht'
      have hl : left.rmax - left.rmin ≤ ℓ * 2 ^ d := by rw [rl.1, rl.2, hm]; linarith
      have hr : right.rmax - right.rmin ≤ ℓ * 2 ^ d := by rw [rr.1, rr.2, hm]; linarith
      have i1 : rmin ≤ next.rmin := by rw [e.1]; exact hin1
      have i2 : next.rmax ≤ rmax := by rw [e.2]; exact hin2
      have gl : left.rmax - left.rmin ≤ δ → left.xmax - left.xmin ≤ M * (left.rmax - left.rmin) := by
        intro hs
        rw [rl.1, rl.2] at hs
        rw [xl.1, xl.2.2, rl.1, rl.2, (mkPiece_ends sqrt P W next.rmin mid).1, sub_zero]
        exact hgrow _ _ i1 hm1 (hm2.le.trans i2) hs
      have gr : right.rmax - right.rmin ≤ δ → right.xmax - right.xmin ≤ M * (right.rmax - right.rmin) := by
        intro hs
        rw [rr.1, rr.2] at hs
        rw [xr.1, xr.2.2, rr.1, rr.2, (mkPiece_ends sqrt P W mid next.rmax).1, sub_zero]
        exact hgrow _ _ (i1.trans hm1.le) hm2 i2 hs
      by_cases ha : accept next left right = true
      · exact ⟨1, _, _, fun m => by rw [Nat.add_comm, step, if_pos ha]⟩
      · obtain ⟨n1, p1, x1, h1⟩ := ih left xl.2.1 (by rw [rl.1, rl.2]; exact hm1) (by rw [rl.1]; exact i1) (by rw [rl.2]; exact hm2.le.trans i2) gl hl (right :: rest) pieces x
        obtain ⟨n2, p2, x2, h2⟩ := ih right xr.2.1 (by rw [rr.1, rr.2]; exact hm2) (by rw [rr.1]; exact i1.trans hm1.le) (by rw [rr.2]; exact i2) gr hr rest p1 x1
        refine ⟨n1 + n2 + 1, p2, x2, fun m => ?_⟩
        rw [show n1 + n2 + 1 + m = (n1 + (n2 + m)) + 1 by omega, step, if_neg ha, h1, h2]
  obtain ⟨d, hd⟩ := pow_unbounded_of_one_lt ((rmax - rmin) / ℓ) (one_lt_two : (1 : K) < 2)
  have hlen : rmax - rmin ≤ ℓ * 2 ^ d := by
    rw [div_lt_iff₀ hℓ0] at hd; linarith
  obtain ⟨n, p', x', hn⟩ := key d (mkPiece sqrt P W rmin rmax) (mkPiece_ends _ _ _ _ _).2 hr le_rfl le_rfl
    (fun hs => by rw [(mkPiece_ends sqrt P W rmin rmax).1, sub_zero]; exact hgrow _ _ le_rfl hr le_rfl hs) hlen [] [] 0
  refine ⟨n, p', ?_⟩
  have := hn 0
  simpa [constructPiecewise, constructLoop] using this

end exact

/-- **C45, non-termination.** If the acceptance test never succeeds — in floating point this happens when the computed
widths are NaN, e.g. for a coefficient function `p` that is negative somewhere — the loop never finishes. -/
theorem C45_diverges {K : Type} [Add K] [Sub K] [Mul K] [Div K] [Neg K] [Zero K] [One K] [NatCast K] [CCmp K] (mk : K → K → Piece K) (acc : Piece K → Piece K → Piece K → Bool) (hacc : ∀ a b c, acc a b c = false)
    (fuel : Nat) (rmin rmax : K) : constructPiecewise mk acc fuel rmin rmax = .timeout := by
  have : ∀ (fuel : Nat) (t : Piece K) (ts ps : List (Piece K)) (x : K), constructLoop mk acc fuel (t :: ts) ps x = .timeout := by
    intro fuel
    induction fuel with
    | zero => intros; rw [constructLoop]
    | succ fuel ih => intro t ts ps x; rw [constructLoop]; simp only [hacc]; exact ih _ _ _ _
  exact this _ _ _ _ _


/-! ### Size and sign of the x-widths (real numbers, real square root) -/

/-- The x-width of a fresh piece: its length times the quadrature mean of the density. -/
theorem mkPiece_xmax (sqrt P W : ℝ → ℝ) (a b : ℝ) :
    (mkPiece sqrt P W a b).xmax = (b - a) * ∑ j ∈ Finset.range 8, (Legendre.weight 8 0 j : ℝ) *
      sqrt (eval (mkPiece sqrt P W a b).w (Legendre.samplePoint 8 0 1 j) / eval (mkPiece sqrt P W a b).p (Legendre.samplePoint 8 0 1 j)) := by
  set D : ℝ → ℝ := fun r => sqrt (eval (mkPiece sqrt P W a b).w r / eval (mkPiece sqrt P W a b).p r) with hD
  have h1 : (mkPiece sqrt P W a b).xmax = integralAt (⟨Legendre.asPolynomial 8 D 0 1⟩ : Poly ℝ 7) 1 * (b - a) :=
    (C43_scalar (integral (⟨Legendre.asPolynomial 8 D 0 1⟩ : Poly ℝ 7)) (b - a) 1).2.1.trans (by rw [(C44_integral_overloads _ _).1])
  rw [h1, ← C44_integral_value]
  have h2 : ∀ t : ℝ, eval (⟨Legendre.asPolynomial 8 D 0 1⟩ : Poly ℝ 7) t =
      ∑ i ∈ Finset.range 8, Legendre.getCoefficients 8 D 0 1 i * shiftedP i t := by
    intro t
    rw [C43_eval, value]
    rcases Legendre.C42_asPolynomial (n := 8) (by norm_num) D 0 1 t with h | h
    · rw [h, legendreSeries]; simp
    · norm_num at h
  have h3 : ∀ i < 16, ∫ t in (0 : ℝ)..1, shiftedP i t = if i = 0 then 1 else 0 := by
    intro i hi
    have := Legendre.C41_orthogonal hi (by norm_num : 0 < 16)
    have e0 : ∀ t : ℝ, (∑ b ∈ Finset.range 16, (Legendre.poly 0 b : ℝ) * t ^ b) = 1 := by
      intro t
      rw [(Legendre.C41_table (by norm_num : 0 < 16) t).1]; simp [shiftedP]
    simp only [e0, mul_one, (Legendre.C41_table hi _).1] at this
    rw [this]
    split
    · next h => subst h; simp
    · rfl
  simp only [h2]
  rw [intervalIntegral.integral_finsetSum (fun i _ => by
    refine Continuous.intervalIntegrable ?_ _ _
    unfold shiftedP; fun_prop)]
  simp only [intervalIntegral.integral_const_mul]
  rw [Finset.sum_congr rfl (fun i hi => by rw [h3 i (by have := Finset.mem_range.mp hi; omega)])]
  rw [Finset.sum_eq_single 0 (fun i _ hi => by simp [hi]) (by simp)]
  have h4 := Legendre.coeff_scaled (n := 8) (by norm_num) D (a := 0) (b := 1) (by norm_num) 0
  have h5 : Legendre.kOf 8 = 8 := rfl
  simp only [pow_zero, mul_one, one_mul, h5] at h4
  rw [if_pos rfl, mul_one, h4]; ring

theorem weights8_pos : ∀ j, j < 8 → 0 < Legendre.weight 8 0 j := by
  have h : (List.range 8).all (fun j => decide (0 < Legendre.weight 8 0 j)) = true := by decide +kernel
  intro j hj
  exact of_decide_eq_true (List.all_eq_true.mp h j (List.mem_range.mpr hj))

theorem sample8_inside {j : ℕ} (hj : j < 8) : 0 < (Legendre.samplePoint 8 0 1 j : ℝ) ∧ (Legendre.samplePoint 8 0 1 j : ℝ) < 1 := by
  have h := Legendre.node_inside (k := 8) (by norm_num) (by norm_num) rfl hj
  have h1 : (-1 : ℝ) < Legendre.node 8 j := by exact_mod_cast h.1
  have h2 : (Legendre.node 8 j : ℝ) < 1 := by exact_mod_cast h.2
  have e : (Legendre.samplePoint 8 0 1 j : ℝ) = 1 / 2 + Legendre.node 8 j * (1 / 2) := by
    simp [Legendre.samplePoint, Legendre.halfWidth]
  rw [e]; constructor <;> linarith

/-- **C45, increasing x.** Where the stored polynomials for `p` and `w` are positive on the piece, `x` grows: `xmin < xmax`. -/
theorem C45_x_increases (sqrt P W : ℝ → ℝ) (hs : ∀ t, 0 < t → 0 < sqrt t) (acc : Piece ℝ → Piece ℝ → Piece ℝ → Bool) (fuel : ℕ)
    {rmin rmax : ℝ} (hr : rmin < rmax) (ps : List (Piece ℝ)) (h : constructPiecewise (mkPiece sqrt P W) acc fuel rmin rmax = .ok ps)
    (pc : Piece ℝ) (hpc : pc ∈ ps)
    (hp : ∀ t, 0 < t → t < 1 → 0 < eval (mkPiece sqrt P W pc.rmin pc.rmax).p t)
    (hw : ∀ t, 0 < t → t < 1 → 0 < eval (mkPiece sqrt P W pc.rmin pc.rmax).w t) : pc.xmin < pc.xmax := by
  obtain ⟨-, h4⟩ := loop_x (mk := mkPiece sqrt P W) (fun a b => ⟨rfl, rfl, (mkPiece_ends sqrt P W a b).2⟩) (pieces := []) (xMin := 0)
    rfl (by simp) (by
      intro pc hpc
      obtain rfl := List.mem_singleton.mp hpc
      exact ⟨(mkPiece_ends sqrt P W rmin rmax).2, hr⟩) h
  obtain ⟨-, hlt, hx⟩ := h4 pc hpc
  rw [(mkPiece_ends sqrt P W _ _).1, sub_zero, mkPiece_xmax] at hx
  have : 0 < pc.xmax - pc.xmin := by
    rw [hx]
    refine mul_pos (sub_pos.mpr hlt) (Finset.sum_pos (fun j hj => ?_) (by simp))
    have hj := Finset.mem_range.mp hj
    have hw8 : (0 : ℝ) < Legendre.weight 8 0 j := by exact_mod_cast weights8_pos j hj
    have := sample8_inside hj
    exact mul_pos hw8 (hs _ (div_pos (hw _ this.1 this.2) (hp _ this.1 this.2)))
  linarith

/-- The stored polynomial of a function that varies by at most `ε` around `v` on the piece stays near `v`. -/
theorem asPolynomial_near : ∃ C : ℝ, 0 ≤ C ∧ ∀ (f : ℝ → ℝ) (a b v ε : ℝ), a < b → (∀ x, a ≤ x → x ≤ b → |f x - v| ≤ ε) →
    ∀ t, 0 ≤ t → t ≤ 1 → |eval (⟨Legendre.asPolynomial 9 f a b⟩ : Poly ℝ 8) t - v| ≤ C * ε + 1 / 10 ^ 12 * |v| := by
  refine ⟨∑ i ∈ Finset.range 9, 2 ^ i * ∑ j ∈ Finset.range 10, |(Legendre.weight 10 i j : ℝ)|, by positivity, ?_⟩
  intro f a b v ε hab hf t t0 t1
  have hk : Legendre.kOf 9 = 10 := rfl
  have h0 : b - a ≠ 0 := by linarith
  have hev : ∀ g : ℝ → ℝ, eval (⟨Legendre.asPolynomial 9 g a b⟩ : Poly ℝ 8) t =
      ∑ i ∈ Finset.range 9, (2 ^ i * ∑ j ∈ Finset.range 10, (Legendre.weight 10 i j : ℝ) * g (Legendre.samplePoint 10 a b j)) * shiftedP i t := by
    intro g
    rw [C43_eval, value]
    rcases Legendre.C42_asPolynomial (n := 9) (by norm_num) g a b t with h | h
    · rw [h, legendreSeries]
      refine Finset.sum_congr rfl (fun i _ => ?_)
      rw [mul_div_cancel_left₀ _ h0, Legendre.coeff_scaled (n := 9) (by norm_num) g hab.ne, hk]
    · exact absurd h hab.ne
  -- the constant
  have hc : |eval (⟨Legendre.asPolynomial 9 (fun _ => v) a b⟩ : Poly ℝ 8) t - v| ≤ 1 / 10 ^ 12 * |v| := by
    have h := Legendre.C42_reconstruction (n := 9) (by norm_num) (by norm_num) hab.ne (fun _ => v) (fun m => if m = 0 then v else 0)
      (by intro s; rw [Finset.sum_eq_single 0 (fun m _ hm => by simp [hm]) (by simp)]; simp) t0 t1
    rcases Legendre.C42_asPolynomial (n := 9) (by norm_num) (fun _ => v) a b t with h' | h'
    · rw [C43_eval, value, h']
      refine h.trans ?_
      rw [Finset.sum_eq_single 0 (fun m _ hm => by simp [hm]) (by simp)]
      simp only [if_true]
      have := abs_nonneg v
      push_cast
      nlinarith
    · exact absurd h' hab.ne
  have hd : |eval (⟨Legendre.asPolynomial 9 f a b⟩ : Poly ℝ 8) t - eval (⟨Legendre.asPolynomial 9 (fun _ => v) a b⟩ : Poly ℝ 8) t| ≤
      (∑ i ∈ Finset.range 9, 2 ^ i * ∑ j ∈ Finset.range 10, |(Legendre.weight 10 i j : ℝ)|) * ε := by
    rw [hev f, hev (fun _ => v), ← Finset.sum_sub_distrib, Finset.sum_mul]
    refine (Finset.abs_sum_le_sum_abs _ _).trans (Finset.sum_le_sum (fun i hi => ?_))
    rw [← sub_mul, ← mul_sub, ← Finset.sum_sub_distrib, abs_mul, abs_mul, abs_of_nonneg (by positivity : (0:ℝ) ≤ 2 ^ i)]
    have hP := (Legendre.C41_table (by have := Finset.mem_range.mp hi; omega : i < 16) t).2.2.2 t0 t1
    have hS : |∑ j ∈ Finset.range 10, ((Legendre.weight 10 i j : ℝ) * f (Legendre.samplePoint 10 a b j) - (Legendre.weight 10 i j : ℝ) * v)| ≤
        (∑ j ∈ Finset.range 10, |(Legendre.weight 10 i j : ℝ)|) * ε := by
      rw [Finset.sum_mul]
      refine (Finset.abs_sum_le_sum_abs _ _).trans (Finset.sum_le_sum (fun j hj => ?_))
      rw [← mul_sub, abs_mul]
      have hn := Legendre.node_inside (k := 10) (by norm_num) (by norm_num) rfl (Finset.mem_range.mp hj)
      have h1 : (-1 : ℝ) < Legendre.node 10 j := by exact_mod_cast hn.1
      have h2 : (Legendre.node 10 j : ℝ) < 1 := by exact_mod_cast hn.2
      have e : (Legendre.samplePoint 10 a b j : ℝ) = (a + b) / 2 + Legendre.node 10 j * ((b - a) / 2) := by
        simp [Legendre.samplePoint, Legendre.halfWidth]
      refine mul_le_mul_of_nonneg_left (hf _ ?_ ?_) (abs_nonneg _) <;> rw [e] <;> nlinarith
    calc 2 ^ i * |∑ j ∈ Finset.range 10, ((Legendre.weight 10 i j : ℝ) * f (Legendre.samplePoint 10 a b j) - (Legendre.weight 10 i j : ℝ) * v)| * |shiftedP i t|
        ≤ 2 ^ i * ((∑ j ∈ Finset.range 10, |(Legendre.weight 10 i j : ℝ)|) * ε) * 1 :=
          mul_le_mul (mul_le_mul_of_nonneg_left hS (by positivity)) hP (abs_nonneg _)
            (mul_nonneg (by positivity) ((abs_nonneg _).trans hS))
      _ = _ := by ring
  calc _ ≤ _ := abs_sub_le _ (eval (⟨Legendre.asPolynomial 9 (fun _ => v) a b⟩ : Poly ℝ 8) t) _
    _ ≤ _ := add_le_add hd hc

/-- **C45, termination.** For all coefficient functions `p`, `w` that are continuous and positive on `[rmin, rmax]` the adaptive
construction finishes. -/
theorem C45_terminates {P W : ℝ → ℝ} {rmin rmax : ℝ} (hr : rmin < rmax) (hP : ContinuousOn P (Set.Icc rmin rmax))
    (hW : ContinuousOn W (Set.Icc rmin rmax)) (hP0 : ∀ r ∈ Set.Icc rmin rmax, 0 < P r) (hW0 : ∀ r ∈ Set.Icc rmin rmax, 0 < W r) :
    ∃ fuel ps, constructPiecewise (mkPiece Real.sqrt P W) accept fuel rmin rmax = .ok ps := by
  have hne : (Set.Icc rmin rmax).Nonempty := ⟨rmin, le_rfl, hr.le⟩
  obtain ⟨r0, hr0, hmin⟩ := isCompact_Icc.exists_isMinOn hne hP
  obtain ⟨r1, hr1, hmax⟩ := isCompact_Icc.exists_isMaxOn hne hW
  obtain ⟨C, hC, near⟩ := asPolynomial_near
  set p0 := P r0
  set w1 := W r1
  have hp0 : 0 < p0 := hP0 _ hr0
  have hw1 : 0 < w1 := hW0 _ hr1
  -- uniform continuity
  have uP := isCompact_Icc.uniformContinuousOn_of_continuous hP
  have uW := isCompact_Icc.uniformContinuousOn_of_continuous hW
  rw [Metric.uniformContinuousOn_iff] at uP uW
  set ε := p0 / (4 * (C + 1)) with hε
  have hε0 : 0 < ε := by positivity
  obtain ⟨δ1, hδ1, h1⟩ := uP ε hε0
  obtain ⟨δ2, hδ2, h2⟩ := uW ε hε0
  have hCε : C * ε ≤ p0 / 4 := by
    rw [hε, ← mul_div_assoc, div_le_div_iff₀ (by positivity) (by norm_num)]; nlinarith
  set B := Real.sqrt ((2 * w1 + p0) / (p0 / 2))
  have hB : 0 < B := Real.sqrt_pos.mpr (by positivity)
  have hS : 0 < ∑ j ∈ Finset.range 8, (Legendre.weight 8 0 j : ℝ) :=
    Finset.sum_pos (fun j hj => by exact_mod_cast weights8_pos j (Finset.mem_range.mp hj)) (by simp)
  refine terminates_of_growth Real.sqrt P W (M := (∑ j ∈ Finset.range 8, (Legendre.weight 8 0 j : ℝ)) * B) (δ := min δ1 δ2 / 2)
    (mul_pos hS hB) (by positivity) hr ?_
  intro a b ha hab hb hδ
  rw [mkPiece_xmax, mul_comm]
  refine mul_le_mul_of_nonneg_right ?_ (by linarith)
  rw [Finset.sum_mul]
  refine Finset.sum_le_sum (fun j hj => mul_le_mul_of_nonneg_left (Real.sqrt_le_sqrt ?_)
    (by exact_mod_cast (weights8_pos j (Finset.mem_range.mp hj)).le))
  obtain ⟨s0, s1⟩ := sample8_inside (Finset.mem_range.mp hj)
  set s := (Legendre.samplePoint 8 0 1 j : ℝ)
  have haI : a ∈ Set.Icc rmin rmax := ⟨ha, hab.le.trans hb⟩
  have mem : ∀ x, a ≤ x → x ≤ b → x ∈ Set.Icc rmin rmax := fun x h h' => ⟨ha.trans h, h'.trans hb⟩
  have dst : ∀ x, a ≤ x → x ≤ b → dist x a < min δ1 δ2 := by
    intro x h h'
    rw [Real.dist_eq, abs_of_nonneg (by linarith)]
    have : 0 < min δ1 δ2 := lt_min hδ1 hδ2
    linarith
  have nP := near P a b (P a) ε hab (fun x h h' => by
    have := h1 x (mem x h h') a haI ((dst x h h').trans_le (min_le_left _ _))
    rw [Real.dist_eq] at this; exact this.le) s s0.le s1.le
  have nW := near W a b (W a) ε hab (fun x h h' => by
    have := h2 x (mem x h h') a haI ((dst x h h').trans_le (min_le_right _ _))
    rw [Real.dist_eq] at this; exact this.le) s s0.le s1.le
  have pa : p0 ≤ P a := hmin haI
  have wa : W a ≤ w1 := hmax haI
  rw [abs_of_pos (hP0 a haI), abs_le] at nP
  rw [abs_of_pos (hW0 a haI), abs_le] at nW
  have ep : (mkPiece Real.sqrt P W a b).p = (⟨Legendre.asPolynomial 9 P a b⟩ : Poly ℝ 8) := rfl
  have ew : (mkPiece Real.sqrt P W a b).w = (⟨Legendre.asPolynomial 9 W a b⟩ : Poly ℝ 8) := rfl
  rw [ep, ew]
  change eval (n := 8) _ s / eval (n := 8) _ s ≤ _
  set ps := eval (⟨Legendre.asPolynomial 9 P a b⟩ : Poly ℝ 8) s
  set ws := eval (⟨Legendre.asPolynomial 9 W a b⟩ : Poly ℝ 8) s
  have hps : p0 / 2 ≤ ps := by linarith [nP.1]
  have hws : ws ≤ 2 * w1 + p0 := by linarith [nW.2]
  rw [div_le_div_iff₀ (by linarith) (by linarith)]
  nlinarith

end Verif.Liouville
