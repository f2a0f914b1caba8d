import Verif.Lemmas.Zeros
import Mathlib.Analysis.Real.Pi.Bounds
import Mathlib.Analysis.SpecialFunctions.Trigonometric.DerivHyp

/-!
# The angle counts zeros: C74–C77

For problems whose potential is constant on each sector and whose sector steps are the exact solution
operators (what `calculateT` computes for such potentials, see C52), the angle returned by `propagate`
is the continuous Prüfer angle of the solution, and so counts its zeros.
-/
namespace Verif.Prufer
open Verif.YT Verif.Propag Verif.Mesh Verif.Spec
open Real (pi sin cos)
open Set (Icc Ioo Ioc Ico)

/-- Specification: the value part of `A` maps `(y(0), y'(0))` to `(y(δ), y'(δ))` for every solution of
`y'' = q y`, and has determinant 1. -/
structure ExactStep (q δ : ℝ) (A : T ℝ) : Prop where
  maps : ∀ y dy, ConstSol q y dy → A.t.mulVec (y 0) (dy 0) = (y δ, dy δ)
  det : A.t.det = 1

/-- A sector with constant potential `v0` whose steps longer than `eps` are exact (`calculateT` returns
the identity for steps of at most 1e-12, sector.cpp:56-57) and whose angle functions are those of
`Model/Prufer`. -/
structure ExactSec (s : PSec ℝ) (v0M v0 E eps : ℝ) (useH : Bool) : Prop where
  lt : s.min < s.max
  h_eq : s.h = s.max - s.min
  dir : s.dir = .forward ∨ s.dir = .backward
  wide : eps < s.h
  theta0 : s.theta0 = theta0 v0M v0
  prufer : s.prufer = pruferHelper v0M v0
  tr : ∀ δ, eps < δ → δ ≤ s.h → ExactStep (v0 - E) δ (s.tr E δ useH)

/-- A column holding the values of `y` at `x` (whatever its energy-derivative part). -/
def At (y dy : ℝ → ℝ) (x : ℝ) (c : Y ℝ) : Prop := c.y = y x ∧ c.dy = dy x

/-- Solutions are determined by their values at one point. -/
theorem _root_.Verif.Prufer.ConstSol.eq_of_init {q : ℝ} {y dy z dz : ℝ → ℝ} (h : ConstSol q y dy) (h' : ConstSol q z dz)
    {x₀ : ℝ} (h0 : y x₀ = z x₀) (h1 : dy x₀ = dz x₀) (x : ℝ) : y x = z x ∧ dy x = dz x := by
  have hd : ConstSol q (fun t => y t - z t) (fun t => dy t - dz t) :=
    ⟨fun t => (h.d1 t).sub (h'.d1 t), fun t => ((h.d2 t).sub (h'.d2 t)).congr_deriv (by ring)⟩
  by_contra hc
  have := hd.nonzero (x₀ := x) (fun hh => hc ⟨by linarith [hh.1], by linarith [hh.2]⟩) x₀
  exact this ⟨by simp [h0], by simp [h1]⟩

/-- The matrix of a fundamental system is exact. -/
theorem ExactStep.of_fundamental {q : ℝ} {c dc s ds : ℝ → ℝ} (hc : ConstSol q c dc) (hs : ConstSol q s ds)
    (c0 : c 0 = 1) (dc0 : dc 0 = 0) (s0 : s 0 = 0) (ds0 : ds 0 = 1) (δ : ℝ) (D : M2 ℝ) :
    ExactStep q δ ⟨⟨c δ, s δ, dc δ, ds δ⟩, D⟩ where
  maps y dy h := by
    have hz : ConstSol q (fun t => c t * y 0 + s t * dy 0) (fun t => dc t * y 0 + ds t * dy 0) :=
      ⟨fun t => ((hc.d1 t).mul_const _).add ((hs.d1 t).mul_const _),
        fun t => (((hc.d2 t).mul_const _).add ((hs.d2 t).mul_const _)).congr_deriv (by ring)⟩
    have := h.eq_of_init hz (x₀ := 0) (by simp [c0, s0]) (by simp [dc0, ds0]) δ
    unfold M2.mulVec
    exact Prod.ext this.1.symm this.2.symm
  det := by
    have hd : ∀ t, HasDerivAt (fun t => c t * ds t - s t * dc t) 0 t := fun t =>
      (((hc.d1 t).mul (hs.d2 t)).sub ((hs.d1 t).mul (hc.d2 t))).congr_deriv (by ring)
    have := is_const_of_deriv_eq_zero (fun t => (hd t).differentiableAt) (fun t => (hd t).deriv) δ 0
    unfold M2.det
    simp only [c0, dc0, s0, ds0] at this
    linarith

theorem ExactStep.mul {q δ : ℝ} {A : T ℝ} (h : ExactStep q δ A) {y dy : ℝ → ℝ} (hs : ConstSol q y dy) {x : ℝ} {c : Y ℝ}
    (hc : At y dy x c) : At y dy (x + δ) (A.mul c) := by
  have := h.maps _ _ (hs.shift x)
  simp only [zero_add, ← hc.1, ← hc.2] at this
  unfold At T.mul
  dsimp only
  rw [this]
  exact ⟨by rw [add_comm], by rw [add_comm]⟩

theorem ExactStep.div {q δ : ℝ} {A : T ℝ} (h : ExactStep q δ A) {y dy : ℝ → ℝ} (hs : ConstSol q y dy) {x : ℝ} {c : Y ℝ}
    (hc : At y dy (x + δ) c) : At y dy x (A.div c) := by
  have := h.maps _ _ (hs.shift x)
  simp only [zero_add] at this
  rw [add_comm δ x, ← hc.1, ← hc.2] at this
  have hd := h.det
  unfold M2.mulVec at this
  unfold M2.det at hd
  have e1 : A.t.a * y x + A.t.b * dy x = c.y := congrArg Prod.fst this
  have e2 : A.t.c * y x + A.t.d * dy x = c.dy := congrArg Prod.snd this
  unfold At T.div M2.adj M2.mulVec
  dsimp only
  constructor
  · linear_combination (-A.t.d) * e1 + A.t.b * e2 + y x * hd
  · linear_combination A.t.c * e1 - A.t.a * e2 + dy x * hd

theorem At.reverse {y dy : ℝ → ℝ} {x : ℝ} {c : Y ℝ} (h : At y dy x c) (m : ℝ) :
    At (fun t => y (m - t)) (fun t => -dy (m - t)) (m - x) c.reverse := by
  unfold At Y.reverse at *; simp [h.1, h.2]

theorem At.of_reverse {y dy : ℝ → ℝ} {x m : ℝ} {c : Y ℝ} (h : At (fun t => y (m - t)) (fun t => -dy (m - t)) x c) :
    At y dy (m - x) c.reverse := by
  unfold At Y.reverse at *; simp [h.1, h.2]

theorem prufer_exact (v0M v0 E : ℝ) {y dy : ℝ → ℝ} (h : ConstSol (v0 - E) y dy) {a b : ℝ}
    (hab : a < b) (hn : ¬ (y a = 0 ∧ dy a = 0)) {Θ : ℝ → ℝ} (hΘ : ContinuousOn Θ (Icc a b))
    (hang : ∀ x ∈ Icc a b, IsAngle (Θ x) (scaling v0M E * y x) (dy x)) {y0 y1 : Y ℝ}
    (h0 : At y dy a y0) (h1 : At y dy b y1) :
    pruferHelper v0M v0 E (b - a) y0 y1 = Θ b - Θ a := by
  by_cases hE : v0 < E
  · exact prufer_exact_osc v0M v0 E hE h hab.le hn hΘ hang h0 h1
  · exact prufer_exact_non v0M v0 E hE h hab hn hΘ hang h0 h1

/-- The data of a solution on a sector. -/
structure OnSec (s : PSec ℝ) (v0M v0 E : ℝ) (y dy Θ : ℝ → ℝ) : Prop where
  sol : ConstSol (v0 - E) y dy
  nz : ¬ (y s.min = 0 ∧ dy s.min = 0)
  cont : ContinuousOn Θ (Icc s.min s.max)
  angle : ∀ x ∈ Icc s.min s.max, IsAngle (Θ x) (scaling v0M E * y x) (dy x)

theorem OnSec.prufer {s : PSec ℝ} {v0M v0 E : ℝ} {y dy Θ : ℝ → ℝ} (o : OnSec s v0M v0 E y dy Θ) {a b : ℝ}
    (ha : s.min ≤ a) (hb : b ≤ s.max) (hab : a < b) {y0 y1 : Y ℝ} (h0 : At y dy a y0) (h1 : At y dy b y1) :
    pruferHelper v0M v0 E (b - a) y0 y1 = Θ b - Θ a :=
  prufer_exact v0M v0 E o.sol hab (o.sol.nonzero o.nz a)
    (o.cont.mono fun _ hx => ⟨ha.trans hx.1, hx.2.trans hb⟩)
    (fun x hx => o.angle x ⟨ha.trans hx.1, hx.2.trans hb⟩) h0 h1

/-- Position in the sector nearest to `x`. -/
noncomputable def clip (s : PSec ℝ) (x : ℝ) : ℝ := max s.min (min x s.max)

section sector
variable {s : PSec ℝ} {v0M v0 E eps : ℝ} {useH : Bool} {y dy Θ : ℝ → ℝ}

/-- The clamped step length of `propagateDelta`. -/
theorem clip_len (g : ExactSec s v0M v0 E eps useH) {x : ℝ} (hx : s.min < x) (hf : ¬ x - s.min ≤ eps) :
    (if s.h < x - s.min then s.h else x - s.min) = clip s x - s.min ∧ eps < clip s x - s.min ∧ clip s x ≤ s.max := by
  have hlt := g.lt
  have hw := g.wide
  rw [g.h_eq] at hw ⊢
  unfold clip
  split
  · rw [min_eq_right (by linarith), max_eq_right hlt.le]; exact ⟨rfl, hw, le_rfl⟩
  · rw [min_eq_left (by linarith), max_eq_right hx.le]; exact ⟨rfl, by linarith, by linarith⟩

theorem clip_len' (g : ExactSec s v0M v0 E eps useH) {x : ℝ} (hx : x < s.max) (hf : ¬ s.max - x ≤ eps) :
    (if s.h < s.max - x then s.h else s.max - x) = s.max - clip s x ∧ eps < s.max - clip s x ∧ s.min ≤ clip s x := by
  have hlt := g.lt
  have hw := g.wide
  rw [g.h_eq] at hw ⊢
  unfold clip
  rw [min_eq_left hx.le]
  split
  · rw [max_eq_left (by linarith)]; exact ⟨rfl, hw, le_rfl⟩
  · rw [max_eq_right (by linarith)]; exact ⟨rfl, by linarith, by linarith⟩

/-- Forward sector: away from the left end. -/
theorem fwd_out (g : ExactSec s v0M v0 E eps useH) (heps : 0 ≤ eps) (hd : s.dir = .forward) (o : OnSec s v0M v0 E y dy Θ) {x : ℝ}
    (hx : s.min < x) (hf : ¬ x - s.min ≤ eps) (st : Y ℝ × ℝ) (hst : At y dy s.min st.1) :
    At y dy (clip s x) (s.propagateDelta E useH st (x - s.min)).1 ∧
      (s.propagateDelta E useH st (x - s.min)).2 = st.2 + (Θ (clip s x) - Θ s.min) := by
  obtain ⟨e1, e2, e3⟩ := clip_len g hx hf
  have hpos : (0 : ℝ) ≤ x - s.min := by linarith
  have hstep := g.tr _ e2 (by rw [g.h_eq]; linarith)
  have hat : At y dy (clip s x) ((s.tr E (clip s x - s.min) useH).mul st.1) := by
    have := hstep.mul o.sol hst
    rwa [add_sub_cancel] at this
  have hpd : s.propagateDelta E useH st (x - s.min) =
      ((s.tr E (clip s x - s.min) useH).mul st.1,
        st.2 + pruferHelper v0M v0 E (clip s x - s.min) st.1 ((s.tr E (clip s x - s.min) useH).mul st.1)) := by
    unfold PSec.propagateDelta
    simp only [hd, ccmp_le, ccmp_lt, decide_eq_true_eq, hpos, if_true, e1, g.prufer, reduceCtorEq, if_false,
      decide_true, decide_false, bne_iff_ne, ne_eq, Bool.true_eq_false, not_false_eq_true]
  rw [hpd]
  exact ⟨hat, by rw [o.prufer le_rfl e3 (by linarith) hst hat]⟩

/-- Forward sector: back to the left end. -/
theorem fwd_in (g : ExactSec s v0M v0 E eps useH) (heps : 0 ≤ eps) (hd : s.dir = .forward) (o : OnSec s v0M v0 E y dy Θ) {x : ℝ}
    (hx : s.min < x) (hf : ¬ x - s.min ≤ eps) (st : Y ℝ × ℝ) (hst : At y dy (clip s x) st.1) :
    At y dy s.min (s.propagateDelta E useH st (s.min - x)).1 ∧
      (s.propagateDelta E useH st (s.min - x)).2 = st.2 + (Θ s.min - Θ (clip s x)) := by
  obtain ⟨e1, e2, e3⟩ := clip_len g hx hf
  have hneg : ¬ (0 : ℝ) ≤ s.min - x := by linarith
  have hstep := g.tr _ e2 (by rw [g.h_eq]; linarith)
  have hat : At y dy s.min ((s.tr E (clip s x - s.min) useH).div st.1) := by
    refine hstep.div o.sol (x := s.min) ?_
    rwa [add_sub_cancel]
  have hpd : s.propagateDelta E useH st (s.min - x) =
      ((s.tr E (clip s x - s.min) useH).div st.1,
        st.2 + -pruferHelper v0M v0 E (clip s x - s.min) ((s.tr E (clip s x - s.min) useH).div st.1) st.1) := by
    unfold PSec.propagateDelta
    simp only [hd, ccmp_le, ccmp_lt, decide_eq_true_eq, hneg, if_false, neg_sub, e1, g.prufer, reduceCtorEq]
    simp
  rw [hpd]
  refine ⟨hat, ?_⟩
  rw [o.prufer le_rfl e3 (by linarith) hat hst]; ring

/-- Backward sector: away from the right end. -/
theorem bwd_out (g : ExactSec s v0M v0 E eps useH) (heps : 0 ≤ eps) (hd : s.dir = .backward) (o : OnSec s v0M v0 E y dy Θ) {x : ℝ}
    (hx : x < s.max) (hf : ¬ s.max - x ≤ eps) (st : Y ℝ × ℝ) (hst : At y dy s.max st.1) :
    At y dy (clip s x) (s.propagateDelta E useH st (x - s.max)).1 ∧
      (s.propagateDelta E useH st (x - s.max)).2 = st.2 + (Θ (clip s x) - Θ s.max) := by
  obtain ⟨e1, e2, e3⟩ := clip_len' g hx hf
  have hpos : (0 : ℝ) ≤ s.max - x := by linarith
  have hstep := g.tr _ e2 (by rw [g.h_eq]; linarith)
  have hat : At y dy (clip s x) ((s.tr E (s.max - clip s x) useH).mul st.1.reverse).reverse := by
    have h1 := hst.reverse s.max
    rw [sub_self] at h1
    have h2 := (hstep.mul (o.sol.reflect s.max) h1).of_reverse
    convert h2 using 1; ring
  have hpd : s.propagateDelta E useH st (x - s.max) =
      (((s.tr E (s.max - clip s x) useH).mul st.1.reverse).reverse,
        st.2 + -pruferHelper v0M v0 E (s.max - clip s x) ((s.tr E (s.max - clip s x) useH).mul st.1.reverse).reverse st.1) := by
    unfold PSec.propagateDelta
    simp only [hd, ccmp_le, ccmp_lt, decide_eq_true_eq, if_true, neg_sub, hpos, e1, g.prufer]
    simp
  rw [hpd]
  refine ⟨hat, ?_⟩
  rw [o.prufer e3 le_rfl (by linarith) hat hst]; ring

/-- Backward sector: back to the right end. -/
theorem bwd_in (g : ExactSec s v0M v0 E eps useH) (heps : 0 ≤ eps) (hd : s.dir = .backward) (o : OnSec s v0M v0 E y dy Θ) {x : ℝ}
    (hx : x < s.max) (hf : ¬ s.max - x ≤ eps) (st : Y ℝ × ℝ) (hst : At y dy (clip s x) st.1) :
    At y dy s.max (s.propagateDelta E useH st (s.max - x)).1 ∧
      (s.propagateDelta E useH st (s.max - x)).2 = st.2 + (Θ s.max - Θ (clip s x)) := by
  obtain ⟨e1, e2, e3⟩ := clip_len' g hx hf
  have hneg : ¬ (0 : ℝ) ≤ x - s.max := by linarith
  have hstep := g.tr _ e2 (by rw [g.h_eq]; linarith)
  have hat : At y dy s.max ((s.tr E (s.max - clip s x) useH).div st.1.reverse).reverse := by
    have h1 := hst.reverse s.max
    have h2 := (hstep.div (o.sol.reflect s.max) (x := 0) (by rw [zero_add]; exact h1)).of_reverse
    rwa [sub_zero] at h2
  have hpd : s.propagateDelta E useH st (s.max - x) =
      (((s.tr E (s.max - clip s x) useH).div st.1.reverse).reverse,
        st.2 + pruferHelper v0M v0 E (s.max - clip s x) st.1 ((s.tr E (s.max - clip s x) useH).div st.1.reverse).reverse) := by
    unfold PSec.propagateDelta
    simp only [hd, ccmp_le, ccmp_lt, decide_eq_true_eq, if_true, neg_sub, hneg, if_false, e1, g.prufer]
    simp
  rw [hpd]
  exact ⟨hat, by rw [o.prufer e3 le_rfl (by linarith) hst hat]⟩

/-- `x` is not within `eps` of, but different from, an end of the sector. -/
def Clear (s : PSec ℝ) (eps x : ℝ) : Prop := ¬ (s.min < x ∧ x - s.min ≤ eps) ∧ ¬ (x < s.max ∧ s.max - x ≤ eps)

/-- One sector of `propagate`: the column moves along the solution, the angle along `Θ`. -/
theorem sector_exact (g : ExactSec s v0M v0 E eps useH) (heps : 0 ≤ eps) (o : OnSec s v0M v0 E y dy Θ) {a b : ℝ}
    (ca : Clear s eps a) (cb : Clear s eps b) (c : Y ℝ) (hc : At y dy (clip s a) c) :
    At y dy (clip s b) (s.propagate E useH c a b).1 ∧
      (s.propagate E useH c a b).2 = Θ (clip s b) - Θ (clip s a) := by
  have hlt := g.lt
  have cmin : ∀ x, ¬ s.min < x → clip s x = s.min := fun x hx => by
    unfold clip; exact max_eq_left ((min_le_left _ _).trans (not_lt.mp hx))
  have cmax : ∀ x, ¬ x < s.max → clip s x = s.max := fun x hx => by
    unfold clip; rw [min_eq_right (not_lt.mp hx)]; exact max_eq_right hlt.le
  unfold PSec.propagate
  simp only [ccmp_le, ccmp_lt, decide_eq_true_eq, Bool.not_eq_true', Bool.or_eq_false_iff, Bool.and_eq_false_iff,
    decide_eq_false_iff_not]
  split
  · rcases g.dir with hd | hd
    · simp only [hd, if_true]
      -- to the left end
      have h1 : At y dy s.min (if s.min < a then s.propagateDelta E useH (c, 0) (s.min - a) else (c, 0)).1 ∧
          (if s.min < a then s.propagateDelta E useH (c, 0) (s.min - a) else (c, 0)).2 = Θ s.min - Θ (clip s a) := by
        split
        · rename_i h
          have := fwd_in g heps hd o h (fun hh => ca.1 ⟨h, hh⟩) (c, 0) hc
          rwa [zero_add] at this
        · rename_i h
          have e := cmin a h
          rw [e] at hc ⊢
          exact ⟨hc, by simp⟩
      split
      · rename_i h
        have := fwd_out g heps hd o h (fun hh => cb.1 ⟨h, hh⟩) _ h1.1
        exact ⟨this.1, by rw [this.2, h1.2]; ring⟩
      · rename_i h
        have e := cmin b h
        rw [e]; exact h1
    · simp only [hd, reduceCtorEq, if_false]
      have h1 : At y dy s.max (if a < s.max then s.propagateDelta E useH (c, 0) (s.max - a) else (c, 0)).1 ∧
          (if a < s.max then s.propagateDelta E useH (c, 0) (s.max - a) else (c, 0)).2 = Θ s.max - Θ (clip s a) := by
        split
        · rename_i h
          have := bwd_in g heps hd o h (fun hh => ca.2 ⟨h, hh⟩) (c, 0) hc
          rwa [zero_add] at this
        · rename_i h
          have e := cmax a h
          rw [e] at hc ⊢
          exact ⟨hc, by simp⟩
      split
      · rename_i h
        have := bwd_out g heps hd o h (fun hh => cb.2 ⟨h, hh⟩) _ h1.1
        exact ⟨this.1, by rw [this.2, h1.2]; ring⟩
      · rename_i h
        have e := cmax b h
        rw [e]; exact h1
  · rename_i h
    have e : clip s a = clip s b := by
      by_cases h1 : s.max ≤ a ∧ s.max ≤ b
      · rw [cmax a (not_lt.mpr h1.1), cmax b (not_lt.mpr h1.2)]
      · have h2 : a ≤ s.min ∧ b ≤ s.min := by
          by_contra h3
          exact h ⟨by tauto, by tauto⟩
        rw [cmin a (not_lt.mpr h2.1), cmin b (not_lt.mpr h2.2)]
    rw [← e]
    exact ⟨hc, by simp⟩

end sector

/-! ## The whole mesh -/

/-- Specification: `y`, with derivative `dy`, is a non-trivial continuously differentiable function on
the domain that on every sector `s` of the problem solves `y'' = (v0 - E) y` with a constant `v0`, where
the steps of the sector are exact for that constant. -/
structure PiecewiseSolution (P : Prob ℝ) (v0M E eps : ℝ) (useH : Bool) (y dy : ℝ → ℝ) : Prop where
  c1 : C1NoDouble P.dmin P.dmax y dy
  secs : ∀ s ∈ P.secs, ∃ v0 Y dY, ExactSec s v0M v0 E eps useH ∧ ConstSol (v0 - E) Y dY ∧
    ∀ x ∈ Icc s.min s.max, y x = Y x ∧ dy x = dY x

theorem sector_range {P : Prob ℝ} (hm : IsMesh P.mesh P.dmin P.dmax) {i : Nat} (hi : i < P.secs.length) :
    P.dmin ≤ (P.secs[i]).min ∧ (P.secs[i]).min ≤ (P.secs[i]).max ∧ (P.secs[i]).max ≤ P.dmax := by
  have hi' : i < P.mesh.length := by rw [mesh_length]; exact hi
  have ho := hm.ordered ((P.secs[i]).toSec) (by rw [← mesh_get P _ hi]; exact List.getElem_mem _)
  have h1 := hm.sector_in_domain (x := (P.secs[i]).max) hi'
    (by rw [mesh_get P i hi]; simpa [Sec.contains] using ho)
  have h2 := hm.sector_in_domain (x := (P.secs[i]).min) hi'
    (by rw [mesh_get P i hi]; simpa [Sec.contains] using ho)
  simp only [domainContains, ccmp_le, Bool.and_eq_true, decide_eq_true_eq] at h1 h2 ho
  exact ⟨h2.1, ho, h1.2⟩

theorem mesh_joined {P : Prob ℝ} (hm : IsMesh P.mesh P.dmin P.dmax) {i : Nat} (hi : i + 1 < P.secs.length) :
    (P.secs[i]'(by omega)).max = (P.secs[i + 1]).min := by
  have := hm.step i (by rw [mesh_length]; exact hi)
  rw [mesh_get P i (by omega), mesh_get P (i + 1) hi] at this
  simp only [ccmp_le, decide_eq_true_eq] at this
  exact le_antisymm this.1 this.2

theorem mesh_mono {P : Prob ℝ} (hm : IsMesh P.mesh P.dmin P.dmax) {i j : Nat} (hij : i ≤ j) (hj : j < P.secs.length) :
    (P.secs[i]'(by omega)).min ≤ (P.secs[j]).min ∧ (P.secs[i]'(by omega)).max ≤ (P.secs[j]).max := by
  have h1 := hm.le_min hij (by rw [mesh_length]; exact hj)
  have h2 := hm.le_max hij (by rw [mesh_length]; exact hj)
  rw [mesh_get P i (by omega), mesh_get P j hj] at h1 h2
  simp only [ccmp_le, decide_eq_true_eq] at h1 h2
  exact ⟨h1, h2⟩

section mesh
variable {P : Prob ℝ} {v0M E eps : ℝ} {useH : Bool} {y dy Θ : ℝ → ℝ}

/-- One loop body of `propagate`. -/
theorem step_exact (hm : IsMesh P.mesh P.dmin P.dmax) (hp : PiecewiseSolution P v0M E eps useH y dy) (heps : 0 ≤ eps)
    (hΘ : ContAngle P.dmin P.dmax (scaling v0M E) y dy Θ) {a b : ℝ} {k : Nat} (hk : k < P.secs.length)
    (ca : Clear P.secs[k] eps a) (cb : Clear P.secs[k] eps b) (st : Y ℝ × ℝ)
    (hst : At y dy (clip P.secs[k] a) st.1) :
    At y dy (clip P.secs[k] b) (P.stepAt E useH a b st k).1 ∧
      (P.stepAt E useH a b st k).2 = st.2 + (Θ (clip P.secs[k] b) - Θ (clip P.secs[k] a)) := by
  obtain ⟨v0, Y, dY, g, hsol, hag⟩ := hp.secs _ (List.getElem_mem hk)
  have hr := sector_range hm hk
  have hsub : ∀ x ∈ Icc (P.secs[k]).min (P.secs[k]).max, x ∈ Icc P.dmin P.dmax :=
    fun x hx => ⟨hr.1.trans hx.1, hx.2.trans hr.2.2⟩
  have hclip : ∀ x, clip P.secs[k] x ∈ Icc (P.secs[k]).min (P.secs[k]).max := fun x =>
    ⟨le_max_left _ _, max_le hr.2.1 (min_le_right _ _)⟩
  have hmm : (P.secs[k]).min ∈ Icc (P.secs[k]).min (P.secs[k]).max := ⟨le_rfl, hr.2.1⟩
  have o : OnSec P.secs[k] v0M v0 E Y dY Θ :=
    { sol := hsol
      nz := by
        rw [← (hag _ hmm).1, ← (hag _ hmm).2]; exact hp.c1.simple _ (hsub _ hmm)
      cont := hΘ.cont.mono hsub
      angle := fun x hx => by rw [← (hag x hx).1, ← (hag x hx).2]; exact hΘ.angle x (hsub x hx) }
  have conv : ∀ x ∈ Icc (P.secs[k]).min (P.secs[k]).max, ∀ c, At y dy x c ↔ At Y dY x c := by
    intro x hx c
    unfold At
    rw [(hag x hx).1, (hag x hx).2]
  have := sector_exact g heps o ca cb st.1 ((conv _ (hclip a) _).mp hst)
  unfold Prob.stepAt
  rw [List.getElem?_eq_getElem hk]
  exact ⟨(conv _ (hclip b) _).mpr this.1, by dsimp only; rw [this.2]⟩

/-- A list of steps, each ending where the next one starts. -/
theorem fold_exact (hm : IsMesh P.mesh P.dmin P.dmax) (hp : PiecewiseSolution P v0M E eps useH y dy) (heps : 0 ≤ eps)
    (hΘ : ContAngle P.dmin P.dmax (scaling v0M E) y dy Θ) {a b : ℝ}
    (ca : ∀ s ∈ P.secs, Clear s eps a) (cb : ∀ s ∈ P.secs, Clear s eps b) (q : Nat → ℝ) (l : List Nat) :
    ∀ (k : Nat) (st : Y ℝ × ℝ), (∀ n ∈ k :: l, ∃ hn : n < P.secs.length, q n = clip P.secs[n] b) →
      List.IsChain (fun m n => ∀ hn : n < P.secs.length, q m = clip P.secs[n] a) (k :: l) →
      (∃ hk : k < P.secs.length, At y dy (clip P.secs[k] a) st.1 ∧ st.2 = Θ (clip P.secs[k] a)) →
      At y dy (q ((k :: l).getLast (by simp))) ((k :: l).foldl (P.stepAt E useH a b) st).1 ∧
        ((k :: l).foldl (P.stepAt E useH a b) st).2 = Θ (q ((k :: l).getLast (by simp))) := by
  induction l with
  | nil =>
    intro k st hq _ ⟨hk, h1, h2⟩
    obtain ⟨_, hqk⟩ := hq k (by simp)
    have := step_exact hm hp heps hΘ hk (ca _ (List.getElem_mem hk)) (cb _ (List.getElem_mem hk)) st h1
    simp only [List.foldl_cons, List.foldl_nil, List.getLast_singleton, hqk]
    exact ⟨this.1, by rw [this.2, h2]; ring⟩
  | cons k' l ih =>
    intro k st hq hch ⟨hk, h1, h2⟩
    obtain ⟨_, hqk⟩ := hq k (by simp)
    have := step_exact hm hp heps hΘ hk (ca _ (List.getElem_mem hk)) (cb _ (List.getElem_mem hk)) st h1
    rw [List.isChain_cons_cons] at hch
    obtain ⟨hk', hqk'⟩ := hq k' (by simp)
    have e := hch.1 hk'
    rw [List.foldl_cons, List.getLast_cons (by simp)]
    refine ih k' _ (fun n hn => hq n (List.mem_cons_of_mem _ hn)) hch.2 ⟨hk', ?_, ?_⟩
    · rw [← e, hqk]; exact this.1
    · rw [this.2, h2, ← e, hqk]; ring

theorem clip_of_mem {s : PSec ℝ} {x : ℝ} (h1 : s.min ≤ x) (h2 : x ≤ s.max) : clip s x = x := by
  unfold clip; rw [min_eq_left h2, max_eq_right h1]

theorem clip_low {s : PSec ℝ} {x : ℝ} (h : x ≤ s.min) : clip s x = s.min := by
  unfold clip; exact max_eq_left ((min_le_left _ _).trans h)

theorem clip_high {s : PSec ℝ} {x : ℝ} (h0 : s.min ≤ s.max) (h : s.max ≤ x) : clip s x = s.max := by
  unfold clip; rw [min_eq_right h, max_eq_right h0]

/-- `theta0` lies in `(-π/2, π/2]`. -/
theorem theta0_range (v0M v0 E : ℝ) (c : Y ℝ) : -pi / 2 < theta0 v0M v0 E c ∧ theta0 v0M v0 E c ≤ pi / 2 := by
  unfold theta0
  dsimp only
  split
  · rename_i h
    have hw : 0 < Real.sqrt (E - v0) := Real.sqrt_pos.mpr (by linarith)
    have hq := div_pos (scaling_pos v0M E) hw
    have hr := atanSafe_range (c.y * Real.sqrt (E - v0)) c.dy
    have hmono := rescale_strictMono hq
    have hfix := (C37_rescale _ hq).2.2.2.1
    have f1 : rescale (pi / 2) (scaling v0M E / Real.sqrt (E - v0)) = pi / 2 := by simpa using hfix 1
    have f2 : rescale (-pi / 2) (scaling v0M E / Real.sqrt (E - v0)) = -pi / 2 := by
      have e : ((-1 : ℤ) : ℝ) * (pi / 2) = -pi / 2 := by push_cast; ring
      have := hfix (-1); rwa [e] at this
    constructor
    · have := hmono hr.1; simp only [f2] at this; exact this
    · have := hmono.monotone hr.2; simp only [f1] at this; exact this
  · exact atanSafe_range _ _

/-- The initial angle of `propagate` is the given angle, if that is normalised the same way. -/
theorem init_eq {i : Nat} (hi : i < P.secs.length) {v0 : ℝ} (ht : (P.secs[i]).theta0 = theta0 v0M v0) {a b θ : ℝ} {c : Y ℝ}
    (hc : ¬ (c.y = 0 ∧ c.dy = 0)) (hθ : IsAngle θ (scaling v0M E * c.y) c.dy)
    (hn : (a ≤ b → 0 ≤ θ ∧ θ < pi) ∧ (b < a → 0 < θ ∧ θ ≤ pi)) : P.initTheta pi E c a b i = θ := by
  have hs := scaling_pos v0M E
  have hp := Real.pi_pos
  have hr := theta0_range v0M v0 E c
  have ha := theta0_angle v0M v0 E c
  unfold Prob.initTheta
  rw [List.getElem?_eq_getElem hi]
  simp only [ht, ccmp_lt, ccmp_eq, Bool.or_eq_true, Bool.and_eq_true, decide_eq_true_eq]
  generalize theta0 v0M v0 E c = t at *
  obtain ⟨k, hk⟩ := ha.unique hθ (fun h => hc ⟨(mul_eq_zero.mp h.1).resolve_left hs.ne', h.2⟩)
  have toInt : ∀ {m n : ℤ}, (m : ℝ) * pi < (n : ℝ) * pi → m < n := by
    intro m n hmn
    exact_mod_cast lt_of_mul_lt_mul_right hmn hp.le
  split
  · rename_i h
    have : k = 1 := by
      rcases le_or_gt a b with hab | hab
      · have h0 : t < 0 := by
          rcases h with h | h
          · exact h
          · linarith [h.1]
        have := hn.1 hab
        have i1 : k < 2 := toInt (by push_cast; linarith)
        have i2 : 0 < k := toInt (by push_cast; linarith)
        omega
      · have h0 : t ≤ 0 := by
          rcases h with h | h
          · exact h.le
          · exact h.2.le
        have := hn.2 hab
        have i1 : k < 2 := toInt (by push_cast; linarith)
        have i2 : 0 < k := toInt (by push_cast; linarith)
        omega
    rw [hk, this]; push_cast; ring
  · rename_i h
    push Not at h
    have : k = 0 := by
      rcases le_or_gt a b with hab | hab
      · have := hn.1 hab
        have i1 : k < 1 := toInt (by push_cast; linarith [h.1])
        have i2 : -1 < k := toInt (by push_cast; linarith [h.1])
        omega
      · have h0 : 0 < t := lt_of_le_of_ne h.1 (fun e => h.2 hab e.symm)
        have := hn.2 hab
        have i1 : k < 1 := toInt (by push_cast; linarith)
        have i2 : -1 < k := toInt (by push_cast; linarith)
        omega
    rw [hk, this]; push_cast; ring

/-- **C74**: on a problem with piecewise constant potential and exact steps, `propagate` from `a` to `b`
moves along the solution, and the angle it returns is the continuous Prüfer angle: if `Θ` is any
continuous angle of `(y', scaling · y)` on the domain, normalised at `a` to `[0, π)` (to `(0, π]` for a
propagation to the left), the returned angle is `Θ(b)`. -/
theorem C74_continuous_angle (hm : IsMesh P.mesh P.dmin P.dmax) (heps : 0 ≤ eps)
    (hp : PiecewiseSolution P v0M E eps useH y dy)
    (hΘ : ContAngle P.dmin P.dmax (scaling v0M E) y dy Θ) {a b : ℝ}
    (ha : a ∈ Icc P.dmin P.dmax) (hb : b ∈ Icc P.dmin P.dmax)
    (ca : ∀ s ∈ P.secs, Clear s eps a) (cb : ∀ s ∈ P.secs, Clear s eps b)
    (hn : (a ≤ b → 0 ≤ Θ a ∧ Θ a < pi) ∧ (b < a → 0 < Θ a ∧ Θ a ≤ pi))
    (c : Y ℝ) (hc : c.y = y a ∧ c.dy = dy a) :
    ∃ r : Y ℝ × ℝ, P.propagate pi E c a b useH = .ok r ∧ r.1.y = y b ∧ r.1.dy = dy b ∧ r.2 = Θ b := by
  have hA' : domainContains P.dmin P.dmax a = true := by simpa [domainContains] using ha
  have hB' : domainContains P.dmin P.dmax b = true := by simpa [domainContains] using hb
  obtain ⟨i, j, hi, hj, hia, hjb, hup, hdown, he⟩ := propagate_closed P hm pi a b useH hA' hB'
  simp only [Sec.contains, ccmp_le, Bool.and_eq_true, decide_eq_true_eq] at hia hjb
  simp only [ccmp_le, ccmp_lt, decide_eq_true_eq, decide_eq_false_iff_not] at hup hdown
  have hcnz : ¬ (c.y = 0 ∧ c.dy = 0) := by rw [hc.1, hc.2]; exact hp.c1.simple a ha
  obtain ⟨v0, -, -, gi, -, -⟩ := hp.secs _ (List.getElem_mem hi)
  have hinit : P.initTheta pi E c a b i = Θ a := by
    refine init_eq hi gi.theta0 hcnz ?_ hn
    rw [hc.1, hc.2]; exact hΘ.angle a ha
  have hclip_a : clip P.secs[i] a = a := clip_of_mem hia.2 hia.1
  have hclip_b : clip P.secs[j] b = b := clip_of_mem hjb.2 hjb.1
  let q : Nat → ℝ := fun n => if hn : n < P.secs.length then clip P.secs[n] b else 0
  have hq : ∀ n (hn : n < P.secs.length), q n = clip P.secs[n] b := fun n hn => by simp only [q, dif_pos hn]
  have hstart : ∃ hk : i < P.secs.length, At y dy (clip P.secs[i] a) (c, P.initTheta pi E c a b i).1 ∧
      (c, P.initTheta pi E c a b i).2 = Θ (clip P.secs[i] a) :=
    ⟨hi, by rw [hclip_a]; exact hc, by rw [hclip_a]; exact hinit⟩
  refine ⟨_, he E c, ?_⟩
  have main : ∀ l, visited i j = i :: l → (i :: l).getLast (by simp) = j →
      (∀ n ∈ i :: l, n < P.secs.length) →
      List.IsChain (fun m n => ∀ hn : n < P.secs.length, q m = clip P.secs[n] a) (i :: l) →
      ((visited i j).foldl (P.stepAt E useH a b) (c, P.initTheta pi E c a b i)).1.y = y b ∧
      ((visited i j).foldl (P.stepAt E useH a b) (c, P.initTheta pi E c a b i)).1.dy = dy b ∧
      ((visited i j).foldl (P.stepAt E useH a b) (c, P.initTheta pi E c a b i)).2 = Θ b := by
    intro l hl hlast hlen hch
    have := fold_exact hm hp heps hΘ ca cb q l i (c, P.initTheta pi E c a b i)
      (fun n hn => ⟨hlen n hn, hq n (hlen n hn)⟩) hch hstart
    rw [hlast, hq j hj, hclip_b] at this
    rw [hl]
    exact ⟨this.1.1, this.1.2, this.2⟩
  by_cases hab : a < b
  · obtain ⟨hij, hk⟩ := hup hab
    have hl : visited i j = i :: List.range' (i + 1) (j - i) := by
      simp only [visited, hij, if_true, List.range'_succ]
    refine main _ hl ?_ ?_ ?_
    · have e : i :: List.range' (i + 1) (j - i) = List.range' i (j - i + 1) := by rw [List.range'_succ]
      simp only [e]
      rw [List.getLast_eq_getElem, List.getElem_range']
      simp; omega
    · intro n hn
      rw [← List.range'_succ, List.mem_range'_1] at hn
      omega
    · rw [← List.range'_succ]
      refine (List.isChain_range' i (j - i + 1) 1).imp_of_mem_imp ?_
      intro m n hm' hn' e hnl
      rw [List.mem_range'_1] at hm' hn'
      subst e
      rw [hq m (by omega), clip_high (sector_range hm (by omega)).2.1 (hk m (by omega) hm'.1 (by omega)),
        clip_low, mesh_joined hm hnl]
      exact hia.1.trans ((mesh_mono hm hm'.1 (by omega)).2.trans (mesh_joined hm hnl).le)
  · obtain ⟨hij, hk⟩ := hdown hab
    have hl : visited i j = i :: (List.range' j (i - j)).reverse := by
      rcases Nat.eq_or_lt_of_le hij with h | h
      · subst h; simp [visited]
      · rw [visited, if_neg (by omega), List.range'_concat, List.reverse_append]
        simp; omega
    have hrev : i :: (List.range' j (i - j)).reverse = (List.range' j (i - j + 1)).reverse := by
      rw [List.range'_concat, List.reverse_append]
      simp; omega
    refine main _ hl ?_ ?_ ?_
    · simp only [hrev]
      rw [List.getLast_reverse]
      simp [List.range'_succ]
    · intro n hn
      rw [hrev, List.mem_reverse, List.mem_range'_1] at hn
      omega
    · rw [hrev, List.isChain_reverse]
      refine (List.isChain_range' j (i - j + 1) 1).imp_of_mem_imp ?_
      intro m n hm' hn' e
      rw [List.mem_range'_1] at hm' hn'
      intro hnl
      subst e
      have hm1 : m + 1 < P.secs.length := by omega
      rw [hq (m + 1) hm1, clip_low (hk (m + 1) hm1 (by omega) (by omega)),
        clip_high (sector_range hm hnl).2.1, mesh_joined hm hm1]
      rw [mesh_joined hm hm1]
      exact ((mesh_mono hm (show m + 1 ≤ i by omega) hi).1).trans hia.2

/-! ## Zero counts -/

theorem C1NoDouble.cont_y {A B : ℝ} (h : C1NoDouble A B y dy) : ContinuousOn y (Icc A B) :=
  fun x hx => (h.deriv x hx).continuousWithinAt

theorem dmin_lt_dmax (hm : IsMesh P.mesh P.dmin P.dmax) (hp : PiecewiseSolution P v0M E eps useH y dy) : P.dmin < P.dmax := by
  have h0 : 0 < P.secs.length := by rw [← mesh_length]; exact hm.length_pos
  obtain ⟨v0, -, -, g, -, -⟩ := hp.secs _ (List.getElem_mem h0)
  have := sector_range hm h0
  linarith [g.lt, this.1, this.2.2]

/-- A normalised angle of a direction, for either direction of propagation. -/
theorem exists_normal_angle (u v : ℝ) (a b : ℝ) :
    ∃ θ, IsAngle θ u v ∧ (a ≤ b → 0 ≤ θ ∧ θ < pi) ∧ (b < a → 0 < θ ∧ θ ≤ pi) := by
  have hp := Real.pi_pos
  have hr := atanSafe_range u v
  have ha := atanSafe_angle u v
  rcases lt_trichotomy (atanSafe u v) 0 with h | h | h
  · exact ⟨_, ha.add_pi, fun _ => ⟨by linarith, by linarith⟩, fun _ => ⟨by linarith, by linarith⟩⟩
  · rcases le_or_gt a b with hab | hab
    · exact ⟨_, ha, fun _ => ⟨h.ge, by linarith⟩, fun h => absurd hab (not_le.mpr h)⟩
    · exact ⟨_, ha.add_pi, fun h => absurd h (not_le.mpr hab), fun _ => ⟨by linarith, by linarith⟩⟩
  · exact ⟨_, ha, fun _ => ⟨h.le, by linarith⟩, fun _ => ⟨h, by linarith⟩⟩

/-- A continuous angle normalised at a given point. -/
theorem exists_contAngle (hm : IsMesh P.mesh P.dmin P.dmax) (hp : PiecewiseSolution P v0M E eps useH y dy)
    {a : ℝ} (ha : a ∈ Icc P.dmin P.dmax) {θ : ℝ} (hθ : IsAngle θ (scaling v0M E * y a) (dy a)) :
    ∃ Θ, ContAngle P.dmin P.dmax (scaling v0M E) y dy Θ ∧ Θ a = θ := by
  have hs := scaling_pos v0M E
  obtain ⟨Θ, h1, h2, h3⟩ := lift_exists (dmin_lt_dmax hm hp) (u := fun x => scaling v0M E * y x) (v := dy)
    (continuousOn_const.mul hp.c1.cont_y) hp.c1.cont
    (fun x hx h => hp.c1.simple x hx ⟨(mul_eq_zero.mp h.1).resolve_left hs.ne', h.2⟩) a ha θ hθ
  exact ⟨Θ, ⟨h1, h2⟩, h3⟩

/-- **C75**: the angle returned by `propagate` counts the zeros of the solution: propagating to the
right, `⌊θ/π⌋` is the number of zeros in `(a, b]`; propagating to the left, `1 - ⌈θ/π⌉` is the number of
zeros in `[b, a)`. -/
theorem C75_zero_count (hm : IsMesh P.mesh P.dmin P.dmax) (heps : 0 ≤ eps)
    (hp : PiecewiseSolution P v0M E eps useH y dy) {a b : ℝ}
    (ha : a ∈ Icc P.dmin P.dmax) (hb : b ∈ Icc P.dmin P.dmax)
    (ca : ∀ s ∈ P.secs, Clear s eps a) (cb : ∀ s ∈ P.secs, Clear s eps b)
    (c : Y ℝ) (hc : c.y = y a ∧ c.dy = dy a) :
    ∃ r : Y ℝ × ℝ, P.propagate pi E c a b useH = .ok r ∧ r.1.y = y b ∧ r.1.dy = dy b ∧
      (a ≤ b → ({x ∈ Ioc a b | y x = 0} : Set ℝ).Finite ∧
        (({x ∈ Ioc a b | y x = 0} : Set ℝ).ncard : ℤ) = ⌊r.2 / pi⌋) ∧
      (b < a → ({x ∈ Ico b a | y x = 0} : Set ℝ).Finite ∧
        (({x ∈ Ico b a | y x = 0} : Set ℝ).ncard : ℤ) = 1 - ⌈r.2 / pi⌉) := by
  have hpi := Real.pi_pos
  have hs := scaling_pos v0M E
  obtain ⟨θ, hθ, hn⟩ := exists_normal_angle (scaling v0M E * y a) (dy a) a b
  obtain ⟨Θ, hΘ, hΘa⟩ := exists_contAngle hm hp ha hθ
  obtain ⟨r, r1, r2, r3, r4⟩ := C74_continuous_angle hm heps hp hΘ ha hb ca cb (by rw [hΘa]; exact hn) c hc
  refine ⟨r, r1, r2, r3, fun hab => ?_, fun hba => ?_⟩
  · obtain ⟨f1, f2⟩ := count_Ioc hs hp.c1 hΘ ha hb hab
    refine ⟨f1, ?_⟩
    have : ⌊Θ a / pi⌋ = 0 := by
      rw [Int.floor_eq_zero_iff, hΘa]
      exact ⟨div_nonneg (hn.1 hab).1 hpi.le, (div_lt_one hpi).mpr (hn.1 hab).2⟩
    rw [f2, this, r4, sub_zero]
  · obtain ⟨f1, f2⟩ := count_Ico hs hp.c1 hΘ hb ha hba.le
    refine ⟨f1, ?_⟩
    have : ⌈Θ a / pi⌉ = 1 := by
      rw [Int.ceil_eq_iff, hΘa]
      constructor
      · push_cast; rw [sub_self]; exact div_pos (hn.2 hba).1 hpi
      · push_cast; exact (div_le_one hpi).mpr (hn.2 hba).2
    rw [f2, this, r4]

/-- Multiples of a solution are solutions. -/
theorem PiecewiseSolution.smul (hp : PiecewiseSolution P v0M E eps useH y dy) {k : ℝ} (hk : k ≠ 0) :
    PiecewiseSolution P v0M E eps useH (fun x => k * y x) (fun x => k * dy x) where
  c1 :=
    { deriv := fun x hx => (hp.c1.deriv x hx).const_mul k
      cont := continuousOn_const.mul hp.c1.cont
      simple := fun x hx h => hp.c1.simple x hx
        ⟨(mul_eq_zero.mp h.1).resolve_left hk, (mul_eq_zero.mp h.2).resolve_left hk⟩ }
  secs := by
    intro s hs
    obtain ⟨v0, Y, dY, g, h, e⟩ := hp.secs s hs
    refine ⟨v0, fun x => k * Y x, fun x => k * dY x, g, ⟨fun x => (h.d1 x).const_mul k, fun x => ?_⟩, ?_⟩
    · exact ((h.d2 x).const_mul k).congr_deriv (by ring)
    · intro x hx; rw [(e x hx).1, (e x hx).2]; exact ⟨rfl, rfl⟩

theorem ContAngle.smul {A B sc : ℝ} (h : ContAngle A B sc y dy Θ) (k : ℝ) :
    ContAngle A B sc (fun x => k * y x) (fun x => k * dy x) Θ where
  cont := h.cont
  angle := fun x hx => by
    have := (h.angle x hx).smul k
    rwa [show k * (sc * y x) = sc * (k * y x) by ring] at this

/-- Ends of sectors are never close to, but different from, an end of a sector. -/
theorem clear_max (hm : IsMesh P.mesh P.dmin P.dmax) (hp : PiecewiseSolution P v0M E eps useH y dy) {i : Nat}
    (hi : i < P.secs.length) : ∀ s ∈ P.secs, Clear s eps (P.secs[i]).max := by
  intro s hs
  obtain ⟨j, hj, rfl⟩ := List.mem_iff_getElem.mp hs
  obtain ⟨v0, -, -, g, -, -⟩ := hp.secs _ (List.getElem_mem hj)
  have hw := g.wide
  rw [g.h_eq] at hw
  rcases Nat.lt_or_ge i j with hij | hij
  · have : (P.secs[i]).max ≤ (P.secs[j]).min := by
      have h1 := hm.max_le_min hij (by rw [mesh_length]; exact hj)
      rw [mesh_get P i hi, mesh_get P j hj] at h1
      simpa using h1
    exact ⟨fun h => by linarith [h.1], fun h => by linarith [h.2]⟩
  · have := (mesh_mono hm hij hi).2
    exact ⟨fun h => by linarith [h.2], fun h => by linarith [h.1]⟩

theorem clear_dmin (hm : IsMesh P.mesh P.dmin P.dmax) (hp : PiecewiseSolution P v0M E eps useH y dy) :
    ∀ s ∈ P.secs, Clear s eps P.dmin := by
  intro s hs
  obtain ⟨j, hj, rfl⟩ := List.mem_iff_getElem.mp hs
  obtain ⟨v0, -, -, g, -, -⟩ := hp.secs _ (List.getElem_mem hj)
  have hw := g.wide
  rw [g.h_eq] at hw
  have := (sector_range hm hj).1
  exact ⟨fun h => by linarith [h.1], fun h => by linarith [h.2]⟩

theorem clear_dmax (hm : IsMesh P.mesh P.dmin P.dmax) (hp : PiecewiseSolution P v0M E eps useH y dy) :
    ∀ s ∈ P.secs, Clear s eps P.dmax := by
  intro s hs
  obtain ⟨j, hj, rfl⟩ := List.mem_iff_getElem.mp hs
  obtain ⟨v0, -, -, g, -, -⟩ := hp.secs _ (List.getElem_mem hj)
  have hw := g.wide
  rw [g.h_eq] at hw
  have := (sector_range hm hj).2.2
  exact ⟨fun h => by linarith [h.2], fun h => by linarith [h.1]⟩

/-- The number of interior zeros, and the angle mismatch at the match point. -/
theorem index_general (hm : IsMesh P.mesh P.dmin P.dmax) (hmi : P.matchIndex < P.secs.length) (heps : 0 ≤ eps)
    (hp : PiecewiseSolution P v0M E eps useH y dy) (left right : Y ℝ)
    {kl kr : ℝ} (hkl : kl ≠ 0) (hl : left.y = kl * y P.dmin ∧ left.dy = kl * dy P.dmin)
    (hkr : kr ≠ 0) (hr : right.y = kr * y P.dmax ∧ right.dy = kr * dy P.dmax) :
    ({x ∈ Ioo P.dmin P.dmax | y x = 0} : Set ℝ).Finite ∧
    ∃ derr, ∃ k : ℤ, P.matchingError pi E left right useH =
      .ok (0, derr, ((({x ∈ Ioo P.dmin P.dmax | y x = 0} : Set ℝ).ncard : ℝ) - k) * pi) ∧
      ((P.secs[P.matchIndex]).max < P.dmax → k = 0) ∧
      ((P.secs[P.matchIndex]).max = P.dmax → (y P.dmax = 0 → k = -1) ∧ (y P.dmax ≠ 0 → k = 0)) := by
  have hpi := Real.pi_pos
  have hs := scaling_pos v0M E
  have hlt := dmin_lt_dmax hm hp
  have hmA : P.dmin ∈ Icc P.dmin P.dmax := ⟨le_rfl, hlt.le⟩
  have hmB : P.dmax ∈ Icc P.dmin P.dmax := ⟨hlt.le, le_rfl⟩
  have hmr := sector_range hm hmi
  have hmM : (P.secs[P.matchIndex]).max ∈ Icc P.dmin P.dmax := ⟨hmr.1.trans hmr.2.1, hmr.2.2⟩
  set M := (P.secs[P.matchIndex]).max with hM
  -- the two normalised angles
  obtain ⟨θl, al, nl, -⟩ := exists_normal_angle (scaling v0M E * y P.dmin) (dy P.dmin) 0 1
  obtain ⟨θr, ar, -, nr⟩ := exists_normal_angle (scaling v0M E * y P.dmax) (dy P.dmax) 1 0
  have nl := nl (by norm_num)
  have nr := nr (by norm_num)
  obtain ⟨Θl, hΘl, el⟩ := exists_contAngle hm hp hmA al
  obtain ⟨Θr, hΘr, er⟩ := exists_contAngle hm hp hmB ar
  have hML : P.dmin ≤ M := hmM.1
  obtain ⟨l, l1, l2, l3, l4⟩ := C74_continuous_angle hm heps (hp.smul hkl) (hΘl.smul kl) hmA hmM
    (clear_dmin hm hp) (clear_max hm hp hmi) ⟨fun _ => by rw [el]; exact nl, fun h => absurd hML (not_le.mpr h)⟩ left hl
  -- from the right end: equal to the end point only if nothing has to be propagated
  have hrr : ∃ r : Y ℝ × ℝ, P.propagate pi E right P.dmax M useH = .ok r ∧ r.1.y = kr * y M ∧ r.1.dy = kr * dy M ∧
      ∃ k : ℤ, r.2 = Θr M + k * pi ∧ (M < P.dmax → k = 0) ∧ (M = P.dmax → (y P.dmax = 0 → k = -1) ∧ (y P.dmax ≠ 0 → k = 0)) := by
    rcases eq_or_lt_of_le hmM.2 with e | e
    · -- normalise to [0, π) instead
      obtain ⟨θ', a', n', -⟩ := exists_normal_angle (scaling v0M E * y P.dmax) (dy P.dmax) 0 1
      have n' := n' (by norm_num)
      obtain ⟨Θ', hΘ', e'⟩ := exists_contAngle hm hp hmB a'
      obtain ⟨r, r1, r2, r3, r4⟩ := C74_continuous_angle hm heps (hp.smul hkr) (hΘ'.smul kr) hmB hmM
        (clear_dmax hm hp) (clear_max hm hp hmi)
        ⟨fun _ => by rw [e']; exact n', fun h => absurd h (by rw [e]; exact lt_irrefl _)⟩ right hr
      obtain ⟨k, hk⟩ := ar.unique a' (fun h => hp.c1.simple _ hmB ⟨(mul_eq_zero.mp h.1).resolve_left hs.ne', h.2⟩)
      have toInt : ∀ {m n : ℤ}, (m : ℝ) * pi < (n : ℝ) * pi → m < n := by
        intro m n hmn
        exact_mod_cast lt_of_mul_lt_mul_right hmn hpi.le
      refine ⟨r, r1, r2, r3, k, ?_, fun h => absurd e h.ne, fun _ => ⟨fun h0 => ?_, fun h0 => ?_⟩⟩
      · rw [r4, e, e', er, hk]
      · -- θr = π and θ' = 0
        obtain ⟨m, hm1⟩ := (zero_iff hs hp.c1 hΘr hmB).mp h0
        rw [er] at hm1
        obtain ⟨n, hn1⟩ := (zero_iff hs hp.c1 hΘ' hmB).mp h0
        rw [e'] at hn1
        have i1 : 0 < m := toInt (by push_cast; linarith [nr.1])
        have i2 : m < 2 := toInt (by push_cast; linarith [nr.2])
        have i3 : -1 < n := toInt (by push_cast; linarith [n'.1])
        have i4 : n < 1 := toInt (by push_cast; linarith [n'.2])
        have : n = m + k := by
          have : ((n : ℤ) : ℝ) * pi = ((m + k : ℤ) : ℝ) * pi := by push_cast; linarith
          exact_mod_cast mul_right_cancel₀ hpi.ne' this
        omega
      · have hne : θr ≠ pi := fun h => h0 ((zero_iff hs hp.c1 hΘr hmB).mpr ⟨1, by rw [er, h]; push_cast; ring⟩)
        have hlt' : θr < pi := lt_of_le_of_ne nr.2 hne
        have i1 : -1 < k := toInt (by push_cast; linarith [n'.1])
        have i2 : k < 1 := toInt (by push_cast; linarith [n'.2, nr.1])
        omega
    · obtain ⟨r, r1, r2, r3, r4⟩ := C74_continuous_angle hm heps (hp.smul hkr) (hΘr.smul kr) hmB hmM
        (clear_dmax hm hp) (clear_max hm hp hmi)
        ⟨fun h => absurd e (not_lt.mpr h), fun _ => by rw [er]; exact nr⟩ right hr
      exact ⟨r, r1, r2, r3, 0, by rw [r4]; push_cast; ring, fun _ => rfl, fun h => absurd h e.ne⟩
  obtain ⟨r, r1, r2, r3, k, r4, kA, kB⟩ := hrr
  obtain ⟨c1, c2⟩ := count_Ioc hs hp.c1 hΘl hmA hmB hlt.le
  have hfl0 : ⌊Θl P.dmin / pi⌋ = 0 := by
    rw [Int.floor_eq_zero_iff, el]
    exact ⟨div_nonneg nl.1 hpi.le, (div_lt_one hpi).mpr nl.2⟩
  rw [hfl0, sub_zero] at c2
  have hne : ∀ x ∈ Icc P.dmin P.dmax, ¬ (scaling v0M E * y x = 0 ∧ dy x = 0) := fun x hx h =>
    hp.c1.simple x hx ⟨(mul_eq_zero.mp h.1).resolve_left hs.ne', h.2⟩
  have hconst : Θl P.dmax - Θl M = Θr P.dmax - Θr M :=
    lift_unique (Set.ordConnected_Icc.isPreconnected) hΘl.cont hΘr.cont hΘl.angle hΘr.angle hne hmM hmB
  obtain ⟨m, hmk⟩ := (hΘr.angle _ hmB).unique (hΘl.angle _ hmB) (hne _ hmB)
  have hIoo : ({x ∈ Ioo P.dmin P.dmax | y x = 0} : Set ℝ) ⊆ {x ∈ Ioc P.dmin P.dmax | y x = 0} :=
    fun x hx => ⟨⟨hx.1.1, hx.1.2.le⟩, hx.2⟩
  have hcard : (({x ∈ Ioo P.dmin P.dmax | y x = 0} : Set ℝ).ncard : ℤ) = m := by
    by_cases h0 : y P.dmax = 0
    · have e : ({x ∈ Ioc P.dmin P.dmax | y x = 0} : Set ℝ) =
          insert P.dmax ({x ∈ Ioo P.dmin P.dmax | y x = 0} : Set ℝ) := by
        ext x
        simp only [Set.mem_ofPred_eq, Set.mem_insert_iff]
        constructor
        · rintro ⟨hx, hy⟩
          rcases eq_or_lt_of_le hx.2 with h | h
          · exact Or.inl h
          · exact Or.inr ⟨⟨hx.1, h⟩, hy⟩
        · rintro (h | ⟨hx, hy⟩)
          · subst h; exact ⟨⟨hlt, le_rfl⟩, h0⟩
          · exact ⟨⟨hx.1, hx.2.le⟩, hy⟩
      have hcr : ({x ∈ Ioc P.dmin P.dmax | y x = 0} : Set ℝ).ncard =
          ({x ∈ Ioo P.dmin P.dmax | y x = 0} : Set ℝ).ncard + 1 := by
        rw [e, Set.ncard_insert_of_notMem (fun h => lt_irrefl _ h.1.2) (c1.subset hIoo)]
      obtain ⟨n, hn1⟩ := (zero_iff hs hp.c1 hΘr hmB).mp h0
      have n1 : n = 1 := by
        rw [er] at hn1
        have i1 : 0 < n := by
          have : ((0 : ℤ) : ℝ) * pi < (n : ℝ) * pi := by push_cast; linarith [nr.1]
          exact_mod_cast lt_of_mul_lt_mul_right this hpi.le
        have i2 : n < 2 := by
          have : (n : ℝ) * pi < ((2 : ℤ) : ℝ) * pi := by push_cast; linarith [nr.2]
          exact_mod_cast lt_of_mul_lt_mul_right this hpi.le
        omega
      have : ⌊Θl P.dmax / pi⌋ = m + 1 := by
        rw [hmk, hn1, n1]
        have : (((1 : ℤ) : ℝ) * pi + (m : ℝ) * pi) / pi = ((m + 1 : ℤ) : ℝ) := by
          field_simp; push_cast; ring
        rw [this, Int.floor_intCast]
      rw [hcr, this] at c2
      push_cast at c2
      omega
    · have e : ({x ∈ Ioc P.dmin P.dmax | y x = 0} : Set ℝ) = ({x ∈ Ioo P.dmin P.dmax | y x = 0} : Set ℝ) := by
        ext x
        simp only [Set.mem_ofPred_eq]
        constructor
        · rintro ⟨hx, hy⟩
          exact ⟨⟨hx.1, lt_of_le_of_ne hx.2 (fun h => h0 (h ▸ hy))⟩, hy⟩
        · rintro ⟨hx, hy⟩
          exact ⟨⟨hx.1, hx.2.le⟩, hy⟩
      rw [← e, c2, hmk, er]
      have hlt' : θr < pi := lt_of_le_of_ne nr.2
        (fun h => h0 ((zero_iff hs hp.c1 hΘr hmB).mpr ⟨1, by rw [er, h]; push_cast; ring⟩))
      rw [add_div, mul_div_assoc, div_self hpi.ne', mul_one, Int.floor_add_intCast,
        Int.floor_eq_zero_iff.mpr ⟨div_nonneg nr.1.le hpi.le, (div_lt_one hpi).mpr hlt'⟩, zero_add]
  refine ⟨c1.subset hIoo, l.1.dyE * r.1.y + l.1.dy * r.1.yE - (r.1.dyE * l.1.y + r.1.dy * l.1.yE), k, ?_, kA, kB⟩
  unfold Prob.matchingError
  rw [List.getElem?_eq_getElem hmi]
  simp only [← hM, l1, r1, Outcome.bind_ok, Outcome.pure_eq]
  congr 1
  refine Prod.ext ?_ (Prod.ext rfl ?_)
  · simp only [l2, l3, r2, r3]; ring
  · have : ((({x ∈ Ioo P.dmin P.dmax | y x = 0} : Set ℝ).ncard : ℤ) : ℝ) = (m : ℝ) := by exact_mod_cast hcard
    push_cast at this
    simp only [this, l4, r4]
    linarith

/-- **C76**: the index the library gives to an eigenvalue is the number of zeros of its eigenfunction in
the open domain: if `y` solves the problem at `E` and satisfies both boundary conditions (its values at
the ends are multiples of the given boundary columns), then the matching error is zero and its angle
component is `N π` with `N` the number of interior zeros of `y`. The mesh has to have a sector to the
right of the match point, as all meshes with at least two sectors have (C02, C08). -/
theorem C76_index_counts_zeros (hm : IsMesh P.mesh P.dmin P.dmax) (hmi : P.matchIndex + 1 < P.secs.length) (heps : 0 ≤ eps)
    (hp : PiecewiseSolution P v0M E eps useH y dy) (left right : Y ℝ)
    {kl kr : ℝ} (hkl : kl ≠ 0) (hl : left.y = kl * y P.dmin ∧ left.dy = kl * dy P.dmin)
    (hkr : kr ≠ 0) (hr : right.y = kr * y P.dmax ∧ right.dy = kr * dy P.dmax) :
    ({x ∈ Ioo P.dmin P.dmax | y x = 0} : Set ℝ).Finite ∧
    ∃ derr, P.matchingError pi E left right useH =
      .ok (0, derr, (({x ∈ Ioo P.dmin P.dmax | y x = 0} : Set ℝ).ncard : ℝ) * pi) := by
  obtain ⟨h1, derr, k, h2, h3, -⟩ := index_general hm (by omega) heps hp left right hkl hl hkr hr
  refine ⟨h1, derr, ?_⟩
  have hlt : (P.secs[P.matchIndex]).max < P.dmax := by
    obtain ⟨v0, -, -, g, -, -⟩ := hp.secs _ (List.getElem_mem hmi)
    rw [mesh_joined hm hmi]
    exact g.lt.trans_le (sector_range hm hmi).2.2
  rw [h2, h3 hlt]; simp

/-- **C76**, one sector: if the match point is the right end of the domain (a mesh of one sector) and the
eigenfunction vanishes there, the angle component is `(N + 1) π`: the index is one too large. -/
theorem C76_one_sector_off_by_one (hm : IsMesh P.mesh P.dmin P.dmax) (hmi : P.matchIndex + 1 = P.secs.length) (heps : 0 ≤ eps)
    (hp : PiecewiseSolution P v0M E eps useH y dy) (left right : Y ℝ)
    {kl kr : ℝ} (hkl : kl ≠ 0) (hl : left.y = kl * y P.dmin ∧ left.dy = kl * dy P.dmin)
    (hkr : kr ≠ 0) (hr : right.y = kr * y P.dmax ∧ right.dy = kr * dy P.dmax) :
    ∃ derr, P.matchingError pi E left right useH =
      .ok (0, derr, ((({x ∈ Ioo P.dmin P.dmax | y x = 0} : Set ℝ).ncard : ℝ) + if y P.dmax = 0 then 1 else 0) * pi) := by
  obtain ⟨h1, derr, k, h2, -, h3⟩ := index_general hm (by omega) heps hp left right hkl hl hkr hr
  refine ⟨derr, ?_⟩
  have he : (P.secs[P.matchIndex]).max = P.dmax := by
    have h0 := hm.last
    have hl := mesh_length P
    rw [mesh_get P _ (by omega)] at h0
    simp only [show P.mesh.length - 1 = P.matchIndex by omega] at h0
    exact h0
  rw [h2]
  split
  · rw [(h3 he).1 (by assumption)]; push_cast; ring_nf
  · rw [(h3 he).2 (by assumption)]; push_cast; ring_nf

end mesh

/-! ## Examples -/

theorem sin_sol : ConstSol (0 - 1) sin cos :=
  ⟨Real.hasDerivAt_sin, fun x => (Real.hasDerivAt_cos x).congr_deriv (by ring)⟩

theorem cos_sol : ConstSol (0 - 1) cos (fun x => -sin x) :=
  ⟨Real.hasDerivAt_cos, fun x => (Real.hasDerivAt_sin x).fun_neg.congr_deriv (by ring)⟩

/-- the step of `y'' = -y` -/
noncomputable def oscT (δ : ℝ) : T ℝ := ⟨⟨cos δ, sin δ, -sin δ, cos δ⟩, ⟨0, 0, 0, 0⟩⟩

noncomputable def oscSec (l r : ℝ) (d : Dir) : PSec ℝ :=
  ⟨⟨l, r, d⟩, r - l, fun _ δ _ => oscT δ, theta0 0 0, pruferHelper 0 0⟩

theorem oscSec_exact {l r : ℝ} (h : l < r) (hw : 1e-12 < r - l) {d : Dir} (hd : d = .forward ∨ d = .backward) :
    ExactSec (oscSec l r d) 0 0 1 1e-12 true where
  lt := h
  h_eq := rfl
  dir := hd
  wide := hw
  theta0 := rfl
  prufer := rfl
  tr δ _ _ := ExactStep.of_fundamental cos_sol sin_sol (by simp) (by simp) (by simp) (by simp) δ _

/-- `y'' = -y` on `[0, 4]`, two sectors -/
noncomputable def oscProb : Prob ℝ := ⟨[oscSec 0 2 .forward, oscSec 2 4 .backward], 0, 4, 0⟩

theorem oscProb_mesh : IsMesh oscProb.mesh oscProb.dmin oscProb.dmax where
  tiling :=
    { nonempty := by simp [oscProb, Prob.mesh, bounds]
      first := by simp [oscProb, oscSec, Prob.mesh, bounds]
      last := by simp [oscProb, oscSec, Prob.mesh, bounds]
      joined := by
        intro i hi
        have : i = 0 := by simp [oscProb, Prob.mesh, bounds] at hi; omega
        subst this
        left; simp [oscProb, oscSec, Prob.mesh, bounds] }
  ordered := by
    intro s hs
    simp only [oscProb, oscSec, Prob.mesh, List.map_cons, List.map_nil, List.mem_cons, List.not_mem_nil, or_false] at hs
    rcases hs with rfl | rfl <;> norm_num

theorem oscProb_sin : PiecewiseSolution oscProb 0 1 1e-12 true sin cos where
  c1 :=
    { deriv := fun x _ => (Real.hasDerivAt_sin x).hasDerivWithinAt
      cont := Real.continuous_cos.continuousOn
      simple := fun x _ h => by have := Real.sin_sq_add_cos_sq x; rw [h.1, h.2] at this; norm_num at this }
  secs := by
    intro s hs
    simp only [oscProb, List.mem_cons, List.not_mem_nil, or_false] at hs
    refine ⟨0, sin, cos, ?_, sin_sol, fun _ _ => ⟨rfl, rfl⟩⟩
    rcases hs with rfl | rfl
    · exact oscSec_exact (by norm_num) (by norm_num) (.inl rfl)
    · exact oscSec_exact (by norm_num) (by norm_num) (.inr rfl)

/-- Non-vacuity of C74 and C75: from 0 to the middle of the second sector. -/
example : ∃ r : Y ℝ × ℝ, oscProb.propagate pi 1 ⟨0, 1, 0, 0⟩ 0 3 true = .ok r ∧ r.2 = 3 := by
  have hp := Real.pi_gt_three
  obtain ⟨r, h1, -, -, h2⟩ := C74_continuous_angle (Θ := fun x => x) oscProb_mesh (by norm_num) oscProb_sin
    ⟨continuousOn_id, fun x _ => by simp [IsAngle, scaling, mul_comm]⟩ (a := 0) (b := 3)
    (by simp [oscProb]) (by norm_num [oscProb])
    (clear_dmin oscProb_mesh oscProb_sin)
    (by
      intro s hs
      simp only [oscProb, List.mem_cons, List.not_mem_nil, or_false] at hs
      rcases hs with rfl | rfl <;> norm_num [Clear, oscSec])
    ⟨fun _ => ⟨le_rfl, Real.pi_pos⟩, fun h => absurd h (by norm_num)⟩ ⟨0, 1, 0, 0⟩ (by simp)
  exact ⟨r, h1, h2⟩

/-- Non-vacuity of C38 and C39: the problem has its angle functions and invertible steps. -/
example : HasAngles oscProb 0 ∧ Invertible oscProb 1 true := by
  constructor
  · constructor
    intro s hs
    simp only [oscProb, List.mem_cons, List.not_mem_nil, or_false] at hs
    rcases hs with rfl | rfl <;> exact ⟨0, rfl, rfl⟩
  · intro s hs
    simp only [oscProb, List.mem_cons, List.not_mem_nil, or_false] at hs
    rcases hs with rfl | rfl
    · refine ⟨by norm_num [oscSec], fun δ _ _ => ?_⟩
      simp only [oscSec, oscT, M2.det]
      nlinarith [Real.sin_sq_add_cos_sq δ]
    · refine ⟨by norm_num [oscSec], fun δ _ _ => ?_⟩
      simp only [oscSec, oscT, M2.det]
      nlinarith [Real.sin_sq_add_cos_sq δ]

/-- Non-vacuity of C76: `sin` has one zero in `(0, 4)`. -/
example : ∃ derr, oscProb.matchingError pi 1 ⟨0, 1, 0, 0⟩ ⟨sin 4, cos 4, 0, 0⟩ true = .ok (0, derr, pi) := by
  have hp := Real.pi_gt_three
  have hp2 := Real.pi_lt_four
  obtain ⟨-, derr, h⟩ := C76_index_counts_zeros oscProb_mesh (by simp [oscProb]) (by norm_num) oscProb_sin
    ⟨0, 1, 0, 0⟩ ⟨sin 4, cos 4, 0, 0⟩ (kl := 1) (kr := 1) one_ne_zero (by simp [oscProb]) one_ne_zero (by simp [oscProb])
  refine ⟨derr, ?_⟩
  have : ({x ∈ Ioo oscProb.dmin oscProb.dmax | sin x = 0} : Set ℝ) = {pi} := by
    ext x
    simp only [oscProb, Set.mem_ofPred_eq, Set.mem_singleton_iff, Set.mem_Ioo]
    constructor
    · rintro ⟨⟨h0, h4⟩, hx⟩
      obtain ⟨n, rfl⟩ := Real.sin_eq_zero_iff.mp hx
      have i1 : 0 < n := by
        have : (0 : ℝ) < n := by by_contra hc; push Not at hc; nlinarith
        exact_mod_cast this
      have i2 : n < 2 := by
        have : (n : ℝ) < 2 := by by_contra hc; push Not at hc; nlinarith
        exact_mod_cast this
      have : n = 1 := by omega
      rw [this]; simp
    · rintro rfl
      exact ⟨⟨Real.pi_pos, hp2⟩, Real.sin_pi⟩
  rw [h, this]; simp

/-- one sector -/
noncomputable def oscProb1 : Prob ℝ := ⟨[oscSec 0 pi .forward], 0, pi, 0⟩

theorem oscProb1_mesh : IsMesh oscProb1.mesh oscProb1.dmin oscProb1.dmax where
  tiling :=
    { nonempty := by simp [oscProb1, Prob.mesh, bounds]
      first := by simp [oscProb1, oscSec, Prob.mesh, bounds]
      last := by simp [oscProb1, oscSec, Prob.mesh, bounds]
      joined := by
        intro i hi
        simp [oscProb1, Prob.mesh, bounds] at hi }
  ordered := by
    intro s hs
    simp only [oscProb1, oscSec, Prob.mesh, List.map_cons, List.map_nil, List.mem_cons, List.not_mem_nil, or_false] at hs
    subst hs; simpa using Real.pi_pos.le

/-- The off-by-one is real: the ground state `sin` of `-y'' = E y`, `y(0) = y(π) = 0`, on a uniform mesh
of one sector: no zero in `(0, π)`, but the angle component of the matching error is `π`. -/
theorem C76_one_sector_witness : ({x ∈ Ioo oscProb1.dmin oscProb1.dmax | sin x = 0} : Set ℝ) = ∅ ∧
    ∃ derr, oscProb1.matchingError pi 1 ⟨0, 1, 0, 0⟩ ⟨0, 1, 0, 0⟩ true = .ok (0, derr, pi) := by
  have hpi := Real.pi_gt_three
  have hsol : PiecewiseSolution oscProb1 0 1 1e-12 true sin cos :=
    { c1 :=
        { deriv := fun x _ => (Real.hasDerivAt_sin x).hasDerivWithinAt
          cont := Real.continuous_cos.continuousOn
          simple := fun x _ h => by have := Real.sin_sq_add_cos_sq x; rw [h.1, h.2] at this; norm_num at this }
      secs := by
        intro s hs
        simp only [oscProb1, List.mem_cons, List.not_mem_nil, or_false] at hs
        subst hs
        exact ⟨0, sin, cos, oscSec_exact (by linarith) (by norm_num; linarith) (.inl rfl), sin_sol, fun _ _ => ⟨rfl, rfl⟩⟩ }
  have he : ({x ∈ Ioo oscProb1.dmin oscProb1.dmax | sin x = 0} : Set ℝ) = ∅ := by
    ext x
    simp only [oscProb1, Set.mem_ofPred_eq, Set.mem_empty_iff_false, iff_false, Set.mem_Ioo]
    rintro ⟨⟨h0, h1⟩, h2⟩
    exact (Real.sin_pos_of_pos_of_lt_pi h0 h1).ne' h2
  obtain ⟨derr, h⟩ := C76_one_sector_off_by_one oscProb1_mesh (by simp [oscProb1]) (by norm_num) hsol
    ⟨0, 1, 0, 0⟩ ⟨0, 1, 0, 0⟩ (kl := 1) (kr := -1) one_ne_zero (by simp [oscProb1]) (by norm_num) (by simp [oscProb1])
  refine ⟨he, derr, ?_⟩
  rw [h, he]
  simp [oscProb1]

/-! ## C77: steps of at most 1e-12 -/

theorem atan2_zero_one : atan2 0 1 = 0 := by
  unfold atan2
  rw [show (⟨1, 0⟩ : ℂ) = ((1 : ℝ) : ℂ) from rfl, Complex.arg_ofReal_of_nonneg zero_le_one]

/-- In a sector with `E ≤ v0` the angle step over a column with `y = 0` that is left unchanged is π,
whatever the step length. -/
theorem prufer_unchanged_zero (v0M v0 E δ : ℝ) (hE : ¬ v0 < E) (y0 y1 : Y ℝ) (h0 : y0.y = 0 ∧ y0.dy = 1)
    (h1 : y1.y = 0 ∧ y1.dy = 1) : pruferHelper v0M v0 E δ y0 y1 = pi := by
  have hp := Real.pi_pos
  have h : atanSafe 0 1 = 0 := by
    unfold atanSafe
    rw [atan2_zero_one]
    dsimp only
    rw [if_neg (by linarith), if_neg (by linarith)]
  unfold pruferHelper
  dsimp only
  rw [if_neg hE]
  simp [h0, h1, h]

/-- `calculateT` of a constant potential `v0 = 1` at `E = 0`: the exact step, but the identity for steps of
at most 1e-12 (sector.cpp:56-57). -/
noncomputable def hypT (δ : ℝ) : T ℝ :=
  if |δ| ≤ 1e-12 then T.one else ⟨⟨Real.cosh δ, Real.sinh δ, Real.sinh δ, Real.cosh δ⟩, ⟨0, 0, 0, 0⟩⟩

noncomputable def hypProb : Prob ℝ :=
  ⟨[⟨⟨0, 1, .forward⟩, 1, fun _ δ _ => hypT δ, theta0 1 1, pruferHelper 1 1⟩], 0, 1, 0⟩

theorem hypProb_mesh : IsMesh hypProb.mesh hypProb.dmin hypProb.dmax where
  tiling :=
    { nonempty := by simp [hypProb, Prob.mesh, bounds]
      first := by simp [hypProb, Prob.mesh, bounds]
      last := by simp [hypProb, Prob.mesh, bounds]
      joined := by
        intro i hi
        simp [hypProb, Prob.mesh, bounds] at hi }
  ordered := by
    intro s hs
    simp only [hypProb, Prob.mesh, List.map_cons, List.map_nil, List.mem_cons, List.not_mem_nil, or_false] at hs
    subst hs; norm_num

theorem hypProb_sinh : PiecewiseSolution hypProb 1 0 1e-12 true Real.sinh Real.cosh where
  c1 :=
    { deriv := fun x _ => (Real.hasDerivAt_sinh x).hasDerivWithinAt
      cont := Real.continuous_cosh.continuousOn
      simple := fun x _ h => (Real.cosh_pos x).ne' h.2 }
  secs := by
    intro s hs
    simp only [hypProb, List.mem_cons, List.not_mem_nil, or_false] at hs
    subst hs
    have hs : ConstSol (1 - 0) Real.sinh Real.cosh :=
      ⟨Real.hasDerivAt_sinh, fun x => (Real.hasDerivAt_cosh x).congr_deriv (by ring)⟩
    have hc : ConstSol (1 - 0) Real.cosh Real.sinh :=
      ⟨Real.hasDerivAt_cosh, fun x => (Real.hasDerivAt_sinh x).congr_deriv (by ring)⟩
    refine ⟨1, Real.sinh, Real.cosh, ?_, hs, fun _ _ => ⟨rfl, rfl⟩⟩
    exact
      { lt := by norm_num
        h_eq := by norm_num
        dir := .inl rfl
        wide := by norm_num
        theta0 := rfl
        prufer := rfl
        tr := by
          intro δ h1 h2
          have : ¬ |δ| ≤ 1e-12 := not_le.mpr (h1.trans_le (le_abs_self δ))
          simp only [hypT, if_neg this]
          exact ExactStep.of_fundamental hc hs (by simp) (by simp) (by simp) (by simp) δ _ }

/-- **C77** is false: a step of at most 1e-12 can add π to the angle. For `y'' = y`, `y(0) = 0`,
`y'(0) = 1` (whose solution `sinh` has no other zero), the angle at every `b ∈ (0, 1e-12]` is π, a zero
too many, while at 0 and at every `b ∈ (1e-12, 1)` at least 1e-12 from the right end it is in `[0, π)`, as
it should be. -/
theorem C77_tiny_step_adds_pi :
    (∀ b, 0 < b → b ≤ 1e-12 → hypProb.propagate pi 0 ⟨0, 1, 0, 0⟩ 0 b true = .ok (⟨0, 1, 0, 0⟩, pi)) ∧
    (∀ b, (b = 0 ∨ 1e-12 < b ∧ 1e-12 < 1 - b) → ∃ r : Y ℝ × ℝ, hypProb.propagate pi 0 ⟨0, 1, 0, 0⟩ 0 b true = .ok r ∧ ⌊r.2 / pi⌋ = 0) := by
  have hp := Real.pi_pos
  constructor
  · intro b h0 h1
    have hb1 : b ≤ 1 := h1.trans (by norm_num)
    have hth : theta0 1 1 0 (⟨0, 1, 0, 0⟩ : Y ℝ) = 0 := by
      unfold theta0 atanSafe
      dsimp only
      rw [if_neg (by norm_num), mul_zero, atan2_zero_one, if_neg (by linarith), if_neg (by linarith)]
    have hT : hypT b = T.one := by rw [hypT, if_pos (by rw [abs_of_pos h0]; exact h1)]
    have hpr : ∀ y1 : Y ℝ, y1.y = 0 → y1.dy = 1 → pruferHelper 1 1 0 b ⟨0, 1, 0, 0⟩ y1 = pi :=
      fun y1 e1 e2 => prufer_unchanged_zero 1 1 0 b (by norm_num) _ _ ⟨rfl, rfl⟩ ⟨e1, e2⟩
    have hfs : findSector hypProb.mesh 0 = .ok 0 := by
      unfold findSector findSectorLoop
      simp [hypProb, Prob.mesh, Sec.contains]
    have hh : (1 : ℝ) < b ↔ False := ⟨fun h => absurd hb1 (not_le.mpr h), False.elim⟩
    unfold Prob.propagate
    rw [hfs]
    unfold Prob.walk
    simp only [hypProb, domainContains, ccmp_le, ccmp_lt, ccmp_eq, Outcome.bind_ok, hth, PSec.propagate, PSec.propagateDelta,
      Sec.contains, hh]
    simp [h0.le, hb1, h0, hT, not_lt.mpr h0.le, not_le.mpr h0]
    have : T.one.mul (⟨0, 1, 0, 0⟩ : Y ℝ) = ⟨0, 1, 0, 0⟩ := by simp [T.one, T.mul, M2.mulVec]
    rw [if_neg (not_lt.mpr hb1), hT, this, hth, hpr _ rfl rfl]
    simp
  · intro b hb
    have hbm : b ∈ Icc hypProb.dmin hypProb.dmax := by
      simp only [hypProb]
      rcases hb with rfl | hb
      · simp
      · exact ⟨by have := hb.1; norm_num at this ⊢; linarith, by have := hb.2; norm_num at this ⊢; linarith⟩
    obtain ⟨r, h1, -, -, h2, -⟩ := C75_zero_count hypProb_mesh (by norm_num) hypProb_sinh (a := 0) (b := b)
      (by simp [hypProb]) hbm (clear_dmin hypProb_mesh hypProb_sinh)
      (by
        intro s hs
        simp only [hypProb, List.mem_cons, List.not_mem_nil, or_false] at hs
        subst hs
        rcases hb with rfl | hb
        · norm_num [Clear]
        · constructor
          · rintro ⟨-, h⟩; linarith [hb.1, h]
          · rintro ⟨-, h⟩; linarith [hb.2, h])
      ⟨0, 1, 0, 0⟩ (by simp)
    refine ⟨r, h1, ?_⟩
    have hb0 : 0 ≤ b := hbm.1
    rw [← (h2 hb0).2]
    have : ({x ∈ Ioc 0 b | Real.sinh x = 0} : Set ℝ) = ∅ := by
      ext x
      simp only [Set.mem_ofPred_eq, Set.mem_empty_iff_false, iff_false]
      rintro ⟨hx, h⟩
      exact (Real.sinh_pos_iff.mpr hx.1).ne' h
    rw [this]; simp

end Verif.Prufer
