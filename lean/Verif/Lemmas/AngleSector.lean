import Verif.Lemmas.TurnNum
import Verif.Lemmas.SectorNear
import Mathlib.Analysis.Real.Pi.Bounds

/-!
# The angle over one sector
-/
namespace Verif.Solver
open Verif Verif.Prufer Verif.YT Verif.CalcT Verif.Mesh Verif.Propag Verif.Formulas Verif.Legendre
open Real (pi)

variable {V : ℝ → ℝ} {E K S a b : ℝ} {z dz : ℝ → ℝ}

theorem scaling_one (v0M E : ℝ) : 1 ≤ scaling v0M E := by
  unfold scaling
  split
  · rename_i h
    exact Real.one_le_sqrt.mpr h.le
  · exact le_rfl

theorem scaling_sq {v0M E : ℝ} (hS : 1 ≤ S) (h : E - v0M ≤ S) : scaling v0M E ^ 2 ≤ S := by
  unfold scaling
  split
  · rw [Real.sq_sqrt (by linarith)]; exact h
  · simpa using hS

/-- The angle increment over a sector between two computed columns near a solution. -/
theorem angle_step (hK : 1 ≤ K) (hV : ContinuousOn V (Set.Icc a b)) (hq : ∀ x ∈ Set.Icc a b, |V x - E| ≤ K) (hs : SolvesOn V E a b z dz)
    (hS : 1 ≤ S) (h : 128 * (S * (K * (b - a))) ≤ 1) (hab : a < b) {yl yr : Y ℝ} {e : ℝ} (he0 : 0 ≤ e) (he : 16 * e ≤ b - a)
    (hN : 0 < sz (z a, dz a)) (hu : sz (pr yl - (z a, dz a)) ≤ e * sz (z a, dz a)) (hu' : sz (pr yr - (z b, dz b)) ≤ e * sz (z a, dz a))
    {v0M v0 : ℝ} (hsc : E - v0M ≤ S) (hv0 : E - v0 ≤ 2 * K) (hB : v0 < E → 4096 * K ^ 2 * e ≤ (b - a) * E - ∫ x in a..b, V x) :
    0 < scaling v0M E * yl.y * (scaling v0M E * yr.y) + yl.dy * yr.dy ∧
    pruferHelper v0M v0 E (b - a) yl yr = rot (scaling v0M E * yl.y) yl.dy (scaling v0M E * yr.y) yr.dy ∧
    |rot (scaling v0M E * yl.y) yl.dy (scaling v0M E * yr.y) yr.dy| ≤ 1 / 4 := by
  have hd0 : 0 < b - a := by linarith
  have hKd : 0 ≤ K * (b - a) := by positivity
  have h1 : 128 * K * (b - a) ≤ 1 := by
    have := mul_le_mul_of_nonneg_right hS hKd
    linarith
  have mb : b ∈ Set.Icc a b := ⟨hab.le, le_rfl⟩
  have f1 := short_first hK hq hs (by linarith) mb
  obtain ⟨sg1, sg2⟩ := turn_sign (p := yl.y) (q := yl.dy) (p1 := yr.y) (q1 := yr.dy) hK hV hq hs h1 hab he0 he hN hu hu'
  set N := sz (z a, dz a) with hNd
  have l1 := (le_sz1 (pr yl - (z a, dz a))).trans hu
  have l2 := (le_sz2 (pr yl - (z a, dz a))).trans hu
  have l3 := (le_sz1 (pr yr - (z b, dz b))).trans hu'
  have l4 := (le_sz2 (pr yr - (z b, dz b))).trans hu'
  simp only [pr, Prod.fst_sub, Prod.snd_sub] at l1 l2 l3 l4
  have hab1 : b - a ≤ 1 := by nlinarith
  have hNe : N ≤ sz (pr yl) + e * N := by
    have := sz_le_add (z a, dz a) (pr yl)
    rw [sz_sub_comm] at this
    linarith
  set m := sz (pr yl) with hm
  have heN : 16 * (e * N) ≤ (b - a) * N := by
    have := mul_le_mul_of_nonneg_right he hN.le
    linarith
  have hNm : 15 * N ≤ 16 * m := by
    have := mul_le_mul_of_nonneg_right hab1 hN.le
    linarith
  have hm0 : 0 < m := by linarith
  have c1 : |yr.y - yl.y| ≤ 4 * (K * (b - a)) * m := by
    have e1 : yr.y - yl.y = (yr.y - z b) + (z b - z a) - (yl.y - z a) := by ring
    have : |yr.y - yl.y| ≤ e * N + 2 * N * (b - a) + e * N := by
      rw [e1]
      have := f1.1
      rw [abs_le] at *
      constructor <;> linarith [l1.1, l1.2, l3.1, l3.2, this.1, this.2]
    have k1 : (b - a) * N ≤ K * (b - a) * N := by
      have := mul_le_mul_of_nonneg_right hK (show 0 ≤ (b - a) * N by positivity)
      linarith
    have k2 : K * (b - a) * (15 * N) ≤ K * (b - a) * (16 * m) := mul_le_mul_of_nonneg_left hNm hKd
    have k3 : 0 ≤ K * (b - a) * m := by positivity
    linarith
  have c2 : |yr.dy - yl.dy| ≤ 4 * (K * (b - a)) * m := by
    have e1 : yr.dy - yl.dy = (yr.dy - dz b) + (dz b - dz a) - (yl.dy - dz a) := by ring
    have : |yr.dy - yl.dy| ≤ e * N + 2 * K * N * (b - a) + e * N := by
      rw [e1]
      have := f1.2
      rw [abs_le] at *
      constructor <;> linarith [l2.1, l2.2, l4.1, l4.2, this.1, this.2]
    have k1 : (b - a) * N ≤ K * (b - a) * N := by
      have := mul_le_mul_of_nonneg_right hK (show 0 ≤ (b - a) * N by positivity)
      linarith
    have k2 : K * (b - a) * (15 * N) ≤ K * (b - a) * (16 * m) := mul_le_mul_of_nonneg_left hNm hKd
    have k3 : 0 ≤ K * (b - a) * m := by positivity
    linarith
  obtain ⟨r1, r2⟩ := rot_near (S := S) (scaling_one v0M E) (scaling_sq hS hsc) hm0 (le_sz1 (pr yl)) (le_sz2 (pr yl)) (sz_eq (pr yl)) c1 c2 (by linarith)
  refine ⟨r1, prufer_small hd0.le r1 (fun hE => ⟨?_, sg2 (hB hE)⟩) (fun _ => sg1), r2.trans (by linarith)⟩
  have p3 := Real.pi_gt_three
  have sq : Real.sqrt (E - v0) ≤ 2 * K := by
    rw [Real.sqrt_le_left (by linarith)]
    nlinarith
  have := mul_le_mul_of_nonneg_right sq hd0.le
  linarith

/-- Full steps of a sector with their angle. -/
theorem propagate_angle {s : PSec ℝ} (hs : s.h = s.max - s.min) (hlt : s.min < s.max) (hd : s.dir ≠ .none) {a b : ℝ} (E : ℝ) (useH : Bool) (y : Y ℝ) :
    (a ≤ s.min → s.max ≤ b → (s.propagate E useH y a b).2 = s.prufer E (s.max - s.min) y (s.propagate E useH y a b).1) ∧
    (s.max ≤ a → b ≤ s.min → (s.propagate E useH y a b).2 = -(s.prufer E (s.max - s.min) (s.propagate E useH y a b).1 y)) := by
  have hw : ∀ {d : ℝ}, s.max - s.min ≤ d → (if s.max - s.min < d then s.max - s.min else d) = s.max - s.min := by
    intro d hd'
    split
    · rfl
    · linarith
  constructor
  · intro ha hb
    have hskip : ¬ ((s.max ≤ a ∧ s.max ≤ b) ∨ (a ≤ s.min ∧ b ≤ s.min)) := by
      rintro (h | h) <;> linarith [h.1, h.2]
    rw [(propagate_cases s E useH a b y).2 hskip]
    cases hdir : s.dir with
    | none => exact absurd hdir hd
    | forward =>
      rw [if_pos rfl, if_pos (show s.min < b by linarith), if_neg (show ¬ s.min < a by linarith)]
      unfold PSec.propagateDelta
      have p1 : (0 : ℝ) ≤ b - s.min := by linarith
      simp only [hdir, ccmp_le, ccmp_lt, decide_eq_true_eq, reduceCtorEq, if_false, p1, if_true, hs, hw (show s.max - s.min ≤ b - s.min by linarith), decide_true, decide_false, bne, zero_add]
      simp
    | backward =>
      rw [if_neg (by decide), if_neg (show ¬ b < s.max by linarith), if_pos (show a < s.max by linarith)]
      unfold PSec.propagateDelta
      have p1 : ¬ (0 : ℝ) ≤ -(s.max - a) := by linarith
      simp only [hdir, ccmp_le, ccmp_lt, decide_eq_true_eq, if_true, neg_neg, p1, if_false, Bool.false_eq_true, hs, hw (show s.max - s.min ≤ s.max - a by linarith), decide_true, decide_false, zero_add]
      simp
  · intro ha hb
    have hskip : ¬ ((s.max ≤ a ∧ s.max ≤ b) ∨ (a ≤ s.min ∧ b ≤ s.min)) := by
      rintro (h | h) <;> linarith [h.1, h.2]
    rw [(propagate_cases s E useH a b y).2 hskip]
    cases hdir : s.dir with
    | none => exact absurd hdir hd
    | forward =>
      rw [if_pos rfl, if_neg (show ¬ s.min < b by linarith), if_pos (show s.min < a by linarith)]
      unfold PSec.propagateDelta
      have p1 : ¬ (0 : ℝ) ≤ s.min - a := by linarith
      simp only [hdir, ccmp_le, ccmp_lt, decide_eq_true_eq, reduceCtorEq, if_false, p1, if_true, neg_sub, hs, hw (show s.max - s.min ≤ a - s.min by linarith), decide_true, decide_false, zero_add]
      simp
    | backward =>
      rw [if_neg (by decide), if_pos (show b < s.max by linarith), if_neg (show ¬ a < s.max by linarith)]
      unfold PSec.propagateDelta
      have p1 : (0 : ℝ) ≤ s.max - b := by linarith
      simp only [hdir, ccmp_le, ccmp_lt, decide_eq_true_eq, if_true, neg_sub, p1, hs, hw (show s.max - s.min ≤ s.max - b by linarith), decide_true, decide_false, zero_add]
      simp

end Verif.Solver
