import Verif.Lemmas.FlCalc
import Verif.Lemmas.Propagate

/-!
# A full step of a sector in finite precision
-/
namespace Verif.Fp
open Verif.Mesh Verif.YT Verif.CalcT Verif.Propag

section gen
variable {K : Type} [Add K] [Sub K] [Mul K] [Neg K] [Zero K] [One K] [CCmp K]

/-- the step across the whole sector, upwards or downwards -/
def fullStep (s : PSec K) (E : K) (useH up : Bool) (y : Y K) : Y K :=
  let t := s.tr E s.h useH
  if s.dir = .backward then (if up then (t.div y.reverse).reverse else (t.mul y.reverse).reverse)
  else (if up then t.mul y else t.div y)

/-- the length of a step, cut to the width -/
def cut (s : PSec K) (d : K) : K := if CCmp.lt s.h d then s.h else d

/-- What the comparisons in `Sector::propagate` answer when the points are no inner points of the sector. -/
structure EdgeOk (s : PSec K) : Prop where
  up1 : ∀ x, CCmp.le s.max x = true → CCmp.le 0 (x - s.min) = true ∧ cut s (x - s.min) = s.h
  up2 : ∀ x, CCmp.le s.max x = true → CCmp.le 0 (s.min - x) = false ∧ cut s (-(s.min - x)) = s.h
  lo1 : ∀ x, CCmp.le x s.min = true → CCmp.le 0 (-(s.max - x)) = false ∧ cut s (-(-(s.max - x))) = s.h
  lo2 : ∀ x, CCmp.le x s.min = true → CCmp.le 0 (-(x - s.max)) = true ∧ cut s (-(x - s.max)) = s.h
  lt1 : ∀ x, CCmp.le s.max x = true → CCmp.lt s.min x = true ∧ CCmp.lt x s.max = false ∧ CCmp.le x s.min = false
  lt2 : ∀ x, CCmp.le x s.min = true → CCmp.lt s.min x = false ∧ CCmp.lt x s.max = true ∧ CCmp.le s.max x = false

omit [Sub K] [One K] in
theorem pd_mul (s : PSec K) (E : K) (useH : Bool) (st : Y K × K) {d : K} (hb : s.dir ≠ .backward) (h1 : CCmp.le 0 d = true) (h2 : cut s d = s.h) :
    (s.propagateDelta E useH st d).1 = (s.tr E s.h useH).mul st.1 := by
  unfold cut at h2
  unfold PSec.propagateDelta
  simp only [hb, if_false, h1, if_true, h2]

omit [Sub K] [One K] in
theorem pd_div (s : PSec K) (E : K) (useH : Bool) (st : Y K × K) {d : K} (hb : s.dir ≠ .backward) (h1 : CCmp.le 0 d = false) (h2 : cut s (-d) = s.h) :
    (s.propagateDelta E useH st d).1 = (s.tr E s.h useH).div st.1 := by
  unfold cut at h2
  unfold PSec.propagateDelta
  simp only [hb, if_false, h1, Bool.false_eq_true, h2]

omit [Sub K] [One K] in
theorem pd_mul' (s : PSec K) (E : K) (useH : Bool) (st : Y K × K) {d : K} (hb : s.dir = .backward) (h1 : CCmp.le 0 (-d) = true) (h2 : cut s (-d) = s.h) :
    (s.propagateDelta E useH st d).1 = ((s.tr E s.h useH).mul st.1.reverse).reverse := by
  unfold cut at h2
  unfold PSec.propagateDelta
  simp only [hb, if_true, h1, h2]

omit [Sub K] [One K] in
theorem pd_div' (s : PSec K) (E : K) (useH : Bool) (st : Y K × K) {d : K} (hb : s.dir = .backward) (h1 : CCmp.le 0 (-d) = false) (h2 : cut s (-(-d)) = s.h) :
    (s.propagateDelta E useH st d).1 = ((s.tr E s.h useH).div st.1.reverse).reverse := by
  unfold cut at h2
  unfold PSec.propagateDelta
  simp only [hb, if_true, h1, Bool.false_eq_true, if_false, h2]


omit [One K] in
/-- Between points that are no inner points of the sector, `Sector::propagate` does nothing or makes one full step. -/
theorem propagate_edge (s : PSec K) (hs : EdgeOk s) (hd : s.dir ≠ .none) (E : K) (useH : Bool) (y : Y K) (a b : K) :
    (CCmp.le a s.min = true → CCmp.le s.max b = true → (s.propagate E useH y a b).1 = fullStep s E useH true y) ∧
    (CCmp.le s.max a = true → CCmp.le b s.min = true → (s.propagate E useH y a b).1 = fullStep s E useH false y) ∧
    (CCmp.le a s.min = true → CCmp.le b s.min = true → (s.propagate E useH y a b).1 = y) ∧
    (CCmp.le s.max a = true → CCmp.le s.max b = true → (s.propagate E useH y a b).1 = y) := by
  refine ⟨fun ha hb => ?_, fun ha hb => ?_, fun ha hb => ?_, fun ha hb => ?_⟩
  · obtain ⟨a1, a2, a3⟩ := hs.lt2 a ha
    obtain ⟨b1, b2, b3⟩ := hs.lt1 b hb
    unfold PSec.propagate fullStep
    simp only [a1, a2, a3, b1, b2, b3, ha, hb, Bool.false_and, Bool.and_false, Bool.or_self, Bool.not_false, if_true, Bool.false_eq_true, if_false]
    rcases hdir : s.dir with _ | _ | _
    · exact absurd hdir hd
    · simp only [if_true, reduceCtorEq, if_false]
      exact pd_mul s E useH _ (by rw [hdir]; simp) (hs.up1 b hb).1 (hs.up1 b hb).2
    · simp only [reduceCtorEq, if_false, if_true]
      exact pd_div' s E useH _ hdir (hs.lo1 a ha).1 (hs.lo1 a ha).2
  · obtain ⟨a1, a2, a3⟩ := hs.lt1 a ha
    obtain ⟨b1, b2, b3⟩ := hs.lt2 b hb
    unfold PSec.propagate fullStep
    simp only [a1, a2, a3, b1, b2, b3, ha, hb, Bool.false_and, Bool.and_false, Bool.or_self, Bool.not_false, if_true, Bool.false_eq_true, if_false]
    rcases hdir : s.dir with _ | _ | _
    · exact absurd hdir hd
    · simp only [if_true, reduceCtorEq, if_false]
      exact pd_div s E useH _ (by rw [hdir]; simp) (hs.up2 a ha).1 (hs.up2 a ha).2
    · simp only [reduceCtorEq, if_false, if_true]
      exact pd_mul' s E useH _ hdir (hs.lo2 b hb).1 (hs.lo2 b hb).2
  · unfold PSec.propagate
    simp only [ha, hb, Bool.and_self, Bool.or_true, Bool.not_true, Bool.false_eq_true, if_false]
  · unfold PSec.propagate
    simp only [ha, hb, Bool.and_self, Bool.true_or, Bool.not_true, Bool.false_eq_true, if_false]

end gen

theorem edge_real (s : PSec ℝ) (hh : s.h = s.max - s.min) (h0 : s.min < s.max) : EdgeOk s := by
  constructor <;> intro x hx <;> unfold cut at * <;> simp only [ccmp_le, ccmp_lt, decide_eq_true_eq, decide_eq_false_iff_not] at * <;> rw [hh] at *
  · refine ⟨by linarith, ?_⟩; split <;> linarith
  · refine ⟨by linarith, ?_⟩; split <;> linarith
  · refine ⟨by linarith, ?_⟩; split <;> linarith
  · refine ⟨by linarith, ?_⟩; split <;> linarith
  · refine ⟨?_, ?_, ?_⟩ <;> linarith
  · refine ⟨?_, ?_, ?_⟩ <;> linarith

variable {u mu w : ℝ} {fl : ℝ → ℝ}

theorem edge_fl (hA : Arith u mu w fl) (s : PSec (Fl fl)) (hh : s.h = s.max - s.min) (h0 : s.min.val < s.max.val) (hp : 0 < s.h.val) : EdgeOk s := by
  have hv : s.h.val = fl (s.max.val - s.min.val) := by rw [hh]; rfl
  have key : ∀ d : Fl fl, s.h.val ≤ d.val → cut s d = s.h := by
    intro d hd
    unfold cut
    split
    · rfl
    · rename_i hc
      simp only [Fl.lt_def, decide_eq_true_eq, not_lt] at hc
      exact Fl.ext (le_antisymm hc hd)
  have up : ∀ x : Fl fl, s.max.val ≤ x.val → s.h.val ≤ fl (x.val - s.min.val) := fun x hx => by
    rw [hv]; exact hA.r.mono (by linarith)
  have lo : ∀ x : Fl fl, x.val ≤ s.min.val → s.h.val ≤ fl (s.max.val - x.val) := fun x hx => by
    rw [hv]; exact hA.r.mono (by linarith)
  have rev : ∀ p q : ℝ, fl (p - q) = -fl (q - p) := fun p q => by rw [← hA.r.neg, neg_sub]
  constructor <;> intro x hx <;>
    simp only [Fl.le_def, Fl.lt_def, decide_eq_true_eq, decide_eq_false_iff_not, Fl.zero_val, Fl.sub_val, Fl.neg_val] at hx ⊢
  · have := up x hx
    exact ⟨by linarith, key _ (by simpa using this)⟩
  · have := up x hx
    rw [rev]
    refine ⟨by linarith, key _ ?_⟩
    simp only [Fl.neg_val, Fl.sub_val]
    rw [rev]; linarith
  · have := lo x hx
    refine ⟨by linarith, key _ ?_⟩
    simp only [Fl.neg_val, Fl.sub_val]; linarith
  · have := lo x hx
    rw [rev]
    refine ⟨by linarith, key _ ?_⟩
    simp only [Fl.neg_val, Fl.sub_val]
    rw [rev]; linarith
  · refine ⟨?_, ?_, ?_⟩ <;> linarith
  · refine ⟨?_, ?_, ?_⟩ <;> linarith

/-! ### One step -/

/-- accuracy of a column -/
structure RelY (w s B : ℝ) (c : Y (Fl fl)) (c' : Y ℝ) : Prop where
  y : Rel w s B c.y c'.y
  dy : Rel w s B c.dy c'.dy

/-- the numbers of a column -/
def valY (y : Y (Fl fl)) : Y ℝ := ⟨y.y.val, y.dy.val, y.yE.val, y.dyE.val⟩

theorem mulVec_rel (hA : Arith u mu w fl) {B z : ℝ} (b1 : 1 ≤ B) (hz : mu ≤ z) {m : M2 (Fl fl)} {m' : M2 ℝ} (hm : RelM w 1 B m m') {x y : Fl fl} {x' y' : ℝ}
    (hx : Rel w z 1 x x') (hy : Rel w z 1 y y') :
    Rel w z (96 * B) (m.mulVec x y).1 (m'.mulVec x' y').1 ∧ Rel w z (96 * B) (m.mulVec x y).2 (m'.mulVec x' y').2 := by
  have z0 : 0 ≤ z := hA.mu0.trans hz
  have hz1 : mu ≤ 1 * z := by rwa [one_mul]
  have one : ∀ {p q : Fl fl} {p' q' : ℝ}, Rel w 1 B p p' → Rel w z 1 q q' → Rel w z (12 * B) (p * q) (p' * q') := by
    intro p q p' q' hp hq
    have := Rel.mul hA zero_le_one z0 hz1 b1 le_rfl hp hq
    rwa [one_mul, mul_one] at this
  have e : 96 * B = 4 * (12 * B + 12 * B) := by ring
  unfold M2.mulVec
  rw [e]
  exact ⟨Rel.add hA hz (by linarith) (by linarith) (one hm.a hx) (one hm.b hy), Rel.add hA hz (by linarith) (by linarith) (one hm.c hx) (one hm.d hy)⟩

theorem RelM.adj {s B : ℝ} {m : M2 (Fl fl)} {m' : M2 ℝ} (h : RelM w s B m m') : RelM w s B m.adj m'.adj := ⟨h.d, h.b.neg, h.c.neg, h.a⟩

theorem RelY.reverse {s B : ℝ} {y : Y (Fl fl)} {y' : Y ℝ} (h : RelY w s B y y') : RelY w s B y.reverse y'.reverse := ⟨h.y, h.dy.neg⟩

theorem mul_relY (hA : Arith u mu w fl) {B z : ℝ} (b1 : 1 ≤ B) (hz : mu ≤ z) {t : T (Fl fl)} {t' : T ℝ} (ht : RelM w 1 B t.t t'.t) {y : Y (Fl fl)} {y' : Y ℝ} (hy : RelY w z 1 y y') :
    RelY w z (96 * B) (t.mul y) (t'.mul y') :=
  ⟨(mulVec_rel hA b1 hz ht hy.y hy.dy).1, (mulVec_rel hA b1 hz ht hy.y hy.dy).2⟩

theorem div_relY (hA : Arith u mu w fl) {B z : ℝ} (b1 : 1 ≤ B) (hz : mu ≤ z) {t : T (Fl fl)} {t' : T ℝ} (ht : RelM w 1 B t.t t'.t) {y : Y (Fl fl)} {y' : Y ℝ} (hy : RelY w z 1 y y') :
    RelY w z (96 * B) (t.div y) (t'.div y') :=
  ⟨(mulVec_rel hA b1 hz ht.adj hy.y hy.dy).1, (mulVec_rel hA b1 hz ht.adj hy.y hy.dy).2⟩

theorem fullStep_relY (hA : Arith u mu w fl) {B z : ℝ} (b1 : 1 ≤ B) (hz : mu ≤ z) {s : PSec (Fl fl)} {s' : PSec ℝ} (hd : s.dir = s'.dir) {E : Fl fl} {useH up : Bool}
    (ht : RelM w 1 B (s.tr E s.h useH).t (s'.tr E.val s'.h useH).t) {y : Y (Fl fl)} {y' : Y ℝ} (hy : RelY w z 1 y y') :
    RelY w z (96 * B) (fullStep s E useH up y) (fullStep s' E.val useH up y') := by
  unfold fullStep
  rw [hd]
  split
  · split
    · exact (div_relY hA b1 hz ht hy.reverse).reverse
    · exact (mul_relY hA b1 hz ht hy.reverse).reverse
  · split
    · exact mul_relY hA b1 hz ht hy
    · exact div_relY hA b1 hz ht hy

end Verif.Fp
