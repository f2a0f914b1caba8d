import Verif.Model.Eigen
import Verif.Props.Propagate
import Verif.Props.Index
import Mathlib.MeasureTheory.Integral.DivergenceTheorem

/-!
# Eigenfunctions: C55
-/
namespace Verif.Eigen
open Verif.Mesh Verif.YT Verif.Propag

section exact
variable {K : Type} [Field K] [LinearOrder K] [IsStrictOrderedRing K]

/-- mesh point `j` -/
def pt (P : Prob K) (j : Nat) : K :=
  match j with
  | 0 => P.dmin
  | j + 1 => match P.secs[j]? with
    | none => P.dmax
    | some s => s.max

theorem pt_max (P : Prob K) {j : Nat} (hj : j < P.secs.length) : (P.secs[j]).max = pt P (j + 1) := by
  simp [pt, List.getElem?_eq_getElem hj]

theorem pt_min {P : Prob K} (hm : IsMesh P.mesh P.dmin P.dmax) {j : Nat} (hj : j < P.secs.length) : (P.secs[j]).min = pt P j := by
  cases j with
  | zero =>
    have h := hm.first
    rw [mesh_get P 0 hj] at h
    exact h
  | succ j =>
    have h := hm.step j (by rw [mesh_length]; exact hj)
    rw [mesh_get P j (by omega), mesh_get P (j + 1) hj] at h
    simp only [ccmp_le, decide_eq_true_eq] at h
    rw [← pt_max P (by omega)]
    exact le_antisymm h.2 h.1

theorem pt_last {P : Prob K} (hm : IsMesh P.mesh P.dmin P.dmax) : pt P P.secs.length = P.dmax := by
  have hl := hm.length_pos
  rw [mesh_length] at hl
  have h := hm.last
  have e : P.mesh.length - 1 = P.secs.length - 1 := by rw [mesh_length]
  simp only [e] at h
  rw [mesh_get P _ (by omega)] at h
  rw [← h, pt_max P (by omega : P.secs.length - 1 < P.secs.length), show P.secs.length - 1 + 1 = P.secs.length by omega]

theorem pt_in {P : Prob K} (hm : IsMesh P.mesh P.dmin P.dmax) {j : Nat} (hj : j ≤ P.secs.length) :
    P.dmin ≤ pt P j ∧ pt P j ≤ P.dmax := by
  have hl := hm.length_pos
  rw [mesh_length] at hl
  cases j with
  | zero =>
    have := max_in_domain hm (i := 0) hl
    exact ⟨le_rfl, this.1.trans this.2⟩
  | succ j => rw [← pt_max P (by omega)]; exact max_in_domain hm (by omega)

/-- Inside a sector, the sector's own propagation is the global one. -/
theorem sector_global {P : Prob K} {E : K} {useH : Bool} (g : P.Good E useH) {i : Nat} (hi : i < P.secs.length) (y : Y K) {a b : K}
    (ha : (P.secs[i]).min ≤ a ∧ a ≤ (P.secs[i]).max) (hb : (P.secs[i]).min ≤ b ∧ b ≤ (P.secs[i]).max) :
    ((P.secs[i]).propagate E useH y a b).1 = (P.Phi E useH b * (P.Phi E useH a)⁻¹) y := by
  have full : ∀ x, (P.secs[i]).min ≤ x → x ≤ (P.secs[i]).max → P.Phi E useH x = (P.secs[i]).N E useH x * P.Pi E useH x i := by
    intro x _ hx
    unfold Prob.Phi
    have := Pi_full g hi hx (P.secs.length - (i + 1)) (by omega)
    rw [show i + 1 + (P.secs.length - (i + 1)) = P.secs.length by omega] at this
    rw [this, Pi_succ P E useH x i hi]
  have hl : P.Pi E useH a i = P.Pi E useH b i := by
    refine Pi_left g i (by omega) (fun k hk hki => ?_)
    have := Good.max_le_min g hki hi
    exact ⟨this.trans ha.1, this.trans hb.1⟩
  rw [sector_step (g.secs _ (List.getElem_mem hi)), N_step, full a ha.1 ha.2, full b hb.1 hb.2, hl]
  congr 1
  group

/-- `Φ(b)Φ(a)⁻¹` keeps proportional values proportional. -/
theorem Phi_proportional {P : Prob K} {E : K} {useH : Bool} (g : P.Good E useH) {c : K} {u v : Y K} (h : Proportional c u v) {a b : K}
    (ha : P.dmin ≤ a ∧ a ≤ P.dmax) (hb : P.dmin ≤ b ∧ b ≤ P.dmax) :
    Proportional c ((P.Phi E useH b * (P.Phi E useH a)⁻¹) u) ((P.Phi E useH b * (P.Phi E useH a)⁻¹) v) := by
  obtain ⟨ru, rv, e1, e2, e3⟩ := propagate_proportional g 0 c u v h ha hb
  obtain ⟨_, f1⟩ := propagate_eq_Phi g 0 u ha hb
  obtain ⟨_, f2⟩ := propagate_eq_Phi g 0 v ha hb
  rw [f1] at e1
  rw [f2] at e2
  injection e1 with e1
  injection e2 with e2
  subst e1 e2
  exact e3

theorem forwardLoop_spec {P : Prob K} {E : K} (g : P.Good E true) (ys : Nat → Y K) (k : Nat) (hk : k ≤ P.secs.length) :
    ∃ ys', forwardLoop P E k ys = .ok ys' ∧
      (∀ j, j ≤ k → ys' j = (P.Phi E true (pt P j) * (P.Phi E true P.dmin)⁻¹) (ys 0)) ∧ ∀ j, k < j → ys' j = ys j := by
  induction k with
  | zero => exact ⟨ys, rfl, fun j hj => by obtain rfl : j = 0 := by omega
                                           simp [pt], fun _ _ => rfl⟩
  | succ k ih =>
    obtain ⟨ys', h1, h2, h3⟩ := ih (by omega)
    have hk' : k < P.secs.length := by omega
    have hlt := (g.secs _ (List.getElem_mem hk')).lt
    refine ⟨fun j => if j = k + 1 then ((P.secs[k]).propagate E true (ys' k) (P.secs[k]).min (P.secs[k]).max).1 else ys' j, ?_, ?_, ?_⟩
    · rw [forwardLoop, h1]
      simp only [Outcome.bind_ok, List.getElem?_eq_getElem hk', Outcome.pure_eq]
    · intro j hj
      by_cases hjk : j = k + 1
      · subst hjk
        simp only [if_true]
        rw [sector_global g hk' _ ⟨le_rfl, hlt.le⟩ ⟨hlt.le, le_rfl⟩, h2 k le_rfl, pt_min g.mesh hk', pt_max P hk', ← Equiv.Perm.mul_apply]
        congr 1
        group
      · simp only [if_neg hjk]; exact h2 j (by omega)
    · intro j hj
      simp only [if_neg (by omega : j ≠ k + 1)]; exact h3 j (by omega)

theorem backwardLoop_spec {P : Prob K} {E : K} (g : P.Good E true) (ys : Nat → Y K) (k : Nat) (hk : k ≤ P.secs.length) :
    ∃ ys', backwardLoop P E P.secs.length k ys = .ok ys' ∧
      (∀ j, P.secs.length - k ≤ j → j ≤ P.secs.length →
        ys' j = (P.Phi E true (pt P j) * (P.Phi E true P.dmax)⁻¹) (ys P.secs.length)) ∧
      ∀ j, j < P.secs.length - k → ys' j = ys j := by
  induction k with
  | zero => exact ⟨ys, rfl, fun j h1 h2 => by obtain rfl : j = P.secs.length := by omega
                                              rw [pt_last g.mesh]; simp, fun _ _ => rfl⟩
  | succ k ih =>
    obtain ⟨ys', h1, h2, h3⟩ := ih (by omega)
    set n := P.secs.length with hn
    have hk' : n - 1 - k < P.secs.length := by omega
    have hlt := (g.secs _ (List.getElem_mem hk')).lt
    refine ⟨fun j => if j = n - 1 - k then ((P.secs[n - 1 - k]).propagate E true (ys' (n - 1 - k + 1)) (P.secs[n - 1 - k]).max (P.secs[n - 1 - k]).min).1 else ys' j, ?_, ?_, ?_⟩
    · rw [backwardLoop, h1]
      simp only [Outcome.bind_ok, List.getElem?_eq_getElem hk', Outcome.pure_eq]
    · intro j hj1 hj2
      by_cases hjk : j = n - 1 - k
      · subst hjk
        simp only [if_true]
        rw [sector_global g hk' _ ⟨hlt.le, le_rfl⟩ ⟨le_rfl, hlt.le⟩, h2 (n - 1 - k + 1) (by omega) (by omega), pt_min g.mesh hk', pt_max P hk', ← Equiv.Perm.mul_apply]
        congr 1
        group
      · simp only [if_neg hjk]; exact h2 j (by omega) hj2
    · intro j hj
      simp only [if_neg (by omega : j ≠ n - 1 - k)]; exact h3 j (by omega)

/-- `propagationSteps` in closed form. -/
theorem propagationSteps_spec {P : Prob K} {E : K} (g : P.Good E true) (hmi : P.matchIndex < P.secs.length) (sqrt : K → K) (l r : Y K) :
    ∃ steps yl yr,
      yl = (P.Phi E true (pt P (P.matchIndex + 1)) * (P.Phi E true P.dmin)⁻¹) l ∧
      yr = (P.Phi E true (pt P (P.matchIndex + 1)) * (P.Phi E true P.dmax)⁻¹) r ∧
      propagationSteps sqrt P E l r = .ok steps ∧ steps.length = P.secs.length + 1 ∧
      ∀ i (hi : i < steps.length), steps[i] = if i ≤ P.matchIndex
        then ((P.Phi E true (pt P i) * (P.Phi E true P.dmin)⁻¹) l).smul (CCmp.lit 1 / normOf sqrt yl yr)
        else ((P.Phi E true (pt P i) * (P.Phi E true P.dmax)⁻¹) r).smul (matchFactor yl yr / normOf sqrt yl yr) := by
  set n := P.secs.length with hn
  set m := P.matchIndex with hm
  obtain ⟨ys1, e1, f1, f2⟩ := forwardLoop_spec g (fun j => if j = 0 then l else ⟨0, 0, 0, 0⟩) (m + 1) (by omega)
  obtain ⟨ys2, e2, b1, b2⟩ := backwardLoop_spec g (fun j => if j = n then r else ys1 j) (n - 1 - m) (by omega)
  simp only [if_true] at f1 b1
  have hl : ys1 (m + 1) = (P.Phi E true (pt P (m + 1)) * (P.Phi E true P.dmin)⁻¹) l := f1 (m + 1) le_rfl
  have hr : ys2 (m + 1) = (P.Phi E true (pt P (m + 1)) * (P.Phi E true P.dmax)⁻¹) r := by
    have := b1 (m + 1) (by omega) (by omega)
    rw [← hn, if_pos rfl] at this
    exact this
  refine ⟨(List.range (n + 1)).map (fun i => if i ≤ m then (ys2 i).smul (CCmp.lit 1 / normOf sqrt (ys1 (m + 1)) (ys2 (m + 1)))
      else (ys2 i).smul (matchFactor (ys1 (m + 1)) (ys2 (m + 1)) / normOf sqrt (ys1 (m + 1)) (ys2 (m + 1)))), ys1 (m + 1), ys2 (m + 1), hl, hr, ?_, ?_⟩
  · unfold propagationSteps
    rw [← hn] at e2
    simp only [← hn, ← hm, e1, e2, Outcome.bind_ok, Outcome.pure_eq]
  · refine ⟨by simp, fun i hi => ?_⟩
    have hi' : i < n + 1 := by simpa using hi
    simp only [List.getElem_map, List.getElem_range]
    split
    · next him =>
      have h1 := b2 i (by omega)
      rw [if_neg (by omega : i ≠ n)] at h1
      rw [h1, f1 i (by omega)]
    · next him =>
      have h1 := b1 i (by omega) (by omega)
      rw [← hn, if_pos rfl] at h1
      rw [h1]

theorem absK_abs (x : K) : Eta.absK x = |x| := by
  simp only [Eta.absK, ccmp_lt]
  split
  · next h => rw [abs_of_neg (by simpa using h)]
  · next h => rw [abs_of_nonneg (by simpa using h)]

/-- The factor chosen at the matching point is the one that makes the two parts meet. -/
theorem matchFactor_eq {yl yr : Y K} {c : K} (hl : ¬ (yl.y = 0 ∧ yl.dy = 0)) (h : Proportional c yl yr) : matchFactor yl yr = c := by
  obtain ⟨h1, h2⟩ := h
  unfold matchFactor
  simp only [absK_abs, ccmp_lt, decide_eq_true_eq]
  split
  · next hlt =>
    have hy : yr.y ≠ 0 := by
      intro h0
      rw [h0] at h1
      rw [h0, h1] at hlt
      simp only [mul_zero, abs_zero, add_zero] at hlt
      linarith [abs_nonneg yr.dy, abs_nonneg yl.dy]
    rw [h1]; field_simp
  · next hlt =>
    have hy : yr.dy ≠ 0 := by
      intro h0
      rw [h0] at h2
      rw [h0, h2] at hlt
      simp only [mul_zero, abs_zero, add_zero, not_lt] at hlt
      have e1 : yl.y = 0 := by
        have := abs_nonneg yr.y
        have := abs_nonneg yl.y
        exact abs_eq_zero.mp (by linarith)
      exact hl ⟨e1, by rw [h2, mul_zero]⟩
    rw [h2]; field_simp

theorem Proportional.symm_smul {c d : K} {u v : Y K} (h : Proportional c u v) : Proportional d (v.smul (c * d)) u := by
  obtain ⟨h1, h2⟩ := h
  constructor <;> simp only [Y.smul, h1, h2] <;> ring

/-- The eigenfunction in closed form. -/
theorem eigenfunction_core {P : Prob K} {E : K} (g : P.Good E true) (pi : K) (sqrt : K → K)
    (hsqrt : ∀ t, 0 < t → sqrt t ≠ 0) (hmi : P.matchIndex < P.secs.length) (l r : Y K) (hl : ¬ (l.y = 0 ∧ l.dy = 0)) (hr : ¬ (r.y = 0 ∧ r.dy = 0))
    (err : K × K × K) (herr : P.matchingError pi E l r true = .ok err) (h0 : err.1 = 0) :
    ∃ f c yl yr, eigenfunction sqrt P E l r = .ok f ∧ c ≠ 0 ∧ normOf sqrt yl yr ≠ 0 ∧ f.WF ∧
      yl = (P.Phi E true (pt P (P.matchIndex + 1)) * (P.Phi E true P.dmin)⁻¹) l ∧
      yr = (P.Phi E true (pt P (P.matchIndex + 1)) * (P.Phi E true P.dmax)⁻¹) r ∧ matchFactor yl yr = c ∧
      (∀ x, P.dmin ≤ x → x ≤ P.dmax → 
        f.eval x = .ok (1 / normOf sqrt yl yr * ((P.Phi E true x * (P.Phi E true P.dmin)⁻¹) l).y, 1 / normOf sqrt yl yr * ((P.Phi E true x * (P.Phi E true P.dmin)⁻¹) l).dy) ∧
        ∀ v, f.IsValueAt x v → v = (1 / normOf sqrt yl yr * ((P.Phi E true x * (P.Phi E true P.dmin)⁻¹) l).y, 1 / normOf sqrt yl yr * ((P.Phi E true x * (P.Phi E true P.dmin)⁻¹) l).dy)) ∧
      ∀ x, P.dmin ≤ x → x ≤ P.dmax →
        Proportional c ((P.Phi E true x * (P.Phi E true P.dmin)⁻¹) l) ((P.Phi E true x * (P.Phi E true P.dmax)⁻¹) r) := by
  have hmp := matchIndex_point g hmi
  have hd : P.dmin ≤ P.dmax := hmp.1.trans hmp.2
  obtain ⟨err', e1, e2⟩ := C16_zero_matching_error g pi hmi l r hl hr
  rw [herr] at e1
  injection e1 with e1
  subst e1
  obtain ⟨c, hc, hcp⟩ := e2.mp h0
  -- the two solutions are proportional everywhere
  have hprop : ∀ x, P.dmin ≤ x → x ≤ P.dmax →
      Proportional c ((P.Phi E true x * (P.Phi E true P.dmin)⁻¹) l) ((P.Phi E true x * (P.Phi E true P.dmax)⁻¹) r) := by
    intro x h1 h2
    obtain ⟨u, v, f1, f2, f3, f4⟩ := hcp x h1 h2
    obtain ⟨_, q1⟩ := propagate_eq_Phi g pi l ⟨le_rfl, hd⟩ ⟨h1, h2⟩
    obtain ⟨_, q2⟩ := propagate_eq_Phi g pi r ⟨hd, le_rfl⟩ ⟨h1, h2⟩
    rw [q1] at f1; rw [q2] at f2
    injection f1 with f1; injection f2 with f2
    subst f1 f2
    exact ⟨f3, f4⟩
  have hne : ∀ x, P.dmin ≤ x → x ≤ P.dmax →
      ¬ (((P.Phi E true x * (P.Phi E true P.dmin)⁻¹) l).y = 0 ∧ ((P.Phi E true x * (P.Phi E true P.dmin)⁻¹) l).dy = 0) := by
    intro x h1 h2 ⟨h3, h4⟩
    have := Phi_proportional g (c := 0) (u := (P.Phi E true x * (P.Phi E true P.dmin)⁻¹) l) (v := l) ⟨by rw [h3]; ring, by rw [h4]; ring⟩
      (a := x) (b := P.dmin) ⟨h1, h2⟩ ⟨le_rfl, hd⟩
    rw [← Equiv.Perm.mul_apply] at this
    have e : P.Phi E true P.dmin * (P.Phi E true x)⁻¹ * (P.Phi E true x * (P.Phi E true P.dmin)⁻¹) = 1 := by group
    rw [e] at this
    exact hl ⟨by rw [show l.y = _ from this.1]; ring, by rw [show l.dy = _ from this.2]; ring⟩
  obtain ⟨steps, yl, yr, hyl, hyr, hst, hlen, hget⟩ := propagationSteps_spec g hmi sqrt l r
  have hpm := pt_in g.mesh (show P.matchIndex + 1 ≤ P.secs.length by omega)
  have hmf : matchFactor yl yr = c := by
    rw [hyl, hyr]
    exact matchFactor_eq (hne _ hpm.1 hpm.2) (hprop _ hpm.1 hpm.2)
  set nrm := normOf sqrt yl yr with hnrm
  have hnrm0 : nrm ≠ 0 := by
    rw [hnrm]; unfold normOf
    split
    · next h => exact hsqrt _ (by simpa using h)
    · simp
  set κ := 1 / nrm with hκ
  have hκ0 : κ ≠ 0 := one_div_ne_zero hnrm0
  have hstep : ∀ i (hi : i < steps.length), Proportional κ steps[i] ((P.Phi E true (pt P i) * (P.Phi E true P.dmin)⁻¹) l) := by
    intro i hi
    rw [hget i hi]
    split
    · simp only [ccmp_lit]
      constructor <;> simp only [Y.smul, hκ] <;> norm_num <;> ring
    · have hp := pt_in g.mesh (show i ≤ P.secs.length by omega)
      rw [hmf, show c / nrm = c * κ by rw [hκ]; ring]
      exact Proportional.symm_smul (hprop _ hp.1 hp.2)
  set f : EigenObj K (K × K) (Y K) := {
    secs := P.mesh
    dmin := P.dmin
    dmax := P.dmax
    steps := steps
    prop := fun i y a b => match P.secs[i]? with
      | none => (0, 0)
      | some s => let r := (s.propagate E true y a b).1
        (r.y, r.dy) } with hf
  have hfe : eigenfunction sqrt P E l r = .ok f := by
    unfold eigenfunction
    rw [hst]
    rfl
  have hwf : f.WF := ⟨g.mesh, by rw [hf]; simp only [mesh_length]; exact hlen⟩
  have hin : ∀ i (hi : i < P.secs.length) x, (P.secs[i]).min ≤ x → x ≤ (P.secs[i]).max →
      f.evalIn i x = .ok (κ * ((P.Phi E true x * (P.Phi E true P.dmin)⁻¹) l).y, κ * ((P.Phi E true x * (P.Phi E true P.dmin)⁻¹) l).dy) := by
    intro i hi x h1 h2
    have hlt := (g.secs _ (List.getElem_mem hi)).lt
    have him : i < P.mesh.length := by rw [mesh_length]; exact hi
    have key : ∀ j (hj : j < steps.length) (hj' : j ≤ P.secs.length), (P.secs[i]).min ≤ pt P j → pt P j ≤ (P.secs[i]).max →
        ((P.secs[i].propagate E true steps[j] (pt P j) x).1.y, (P.secs[i].propagate E true steps[j] (pt P j) x).1.dy) =
          (κ * ((P.Phi E true x * (P.Phi E true P.dmin)⁻¹) l).y, κ * ((P.Phi E true x * (P.Phi E true P.dmin)⁻¹) l).dy) := by
      intro j hj hj' hp1 hp2
      have hpj := pt_in g.mesh hj'
      have hx : P.dmin ≤ x ∧ x ≤ P.dmax := by
        have a := pt_in g.mesh (show i ≤ P.secs.length by omega)
        have b := pt_in g.mesh (show i + 1 ≤ P.secs.length by omega)
        rw [← pt_min g.mesh hi] at a
        rw [← pt_max P hi] at b
        exact ⟨a.1.trans h1, h2.trans b.2⟩
      rw [sector_global g hi _ ⟨hp1, hp2⟩ ⟨h1, h2⟩]
      have := Phi_proportional g (hstep j hj) (a := pt P j) (b := x) hpj hx
      rw [← Equiv.Perm.mul_apply] at this
      have e : P.Phi E true x * (P.Phi E true (pt P j))⁻¹ * (P.Phi E true (pt P j) * (P.Phi E true P.dmin)⁻¹) = P.Phi E true x * (P.Phi E true P.dmin)⁻¹ := by group
      rw [e] at this
      rw [this.1, this.2]
    have a1 : i < steps.length := by omega
    have a2 : i + 1 < steps.length := by omega
    unfold EigenObj.evalIn
    rw [show f.secs = P.mesh from rfl, List.getElem?_eq_getElem him, show f.steps = steps from rfl,
      List.getElem?_eq_getElem a1, List.getElem?_eq_getElem a2, mesh_get P i hi]
    simp only
    split
    · rw [← key i a1 (by omega) (by rw [pt_min g.mesh hi]) (by rw [← pt_min g.mesh hi]; exact hlt.le)]
      rw [hf]
      simp only [List.getElem?_eq_getElem hi, pt_min g.mesh hi]
    · rw [← key (i + 1) a2 (by omega) (by rw [← pt_max P hi]; exact hlt.le) (by rw [← pt_max P hi])]
      rw [hf]
      simp only [List.getElem?_eq_getElem hi, pt_max P hi]
  have hval : ∀ x, P.dmin ≤ x → x ≤ P.dmax → ∀ v, f.IsValueAt x v →
      v = (κ * ((P.Phi E true x * (P.Phi E true P.dmin)⁻¹) l).y, κ * ((P.Phi E true x * (P.Phi E true P.dmin)⁻¹) l).dy) := by
    intro x h1 h2 v hv
    rcases hv with ⟨ho, _⟩ | ⟨i, hi, hc, he⟩
    · have : domainContains f.dmin f.dmax x = true := by
        simp only [domainContains, Bool.and_eq_true, ccmp_le, decide_eq_true_eq]
        exact ⟨h1, h2⟩
      rw [this] at ho
      simp at ho
    · have hi' : i < P.secs.length := by rw [← mesh_length]; exact hi
      have hg : f.secs[i] = (P.secs[i]).toSec := mesh_get P i hi'
      rw [hg] at hc
      simp only [Sec.contains, Bool.and_eq_true, ccmp_le, decide_eq_true_eq] at hc
      have := hin i hi' x hc.2 hc.1
      rw [this] at he
      injection he with he
      exact he.symm
  refine ⟨f, c, yl, yr, hfe, hc, hnrm0, hwf, hyl, hyr, hmf, ?_, hprop⟩
  intro x h1 h2
  obtain ⟨v, hv1, hv2⟩ := eval_value hwf x (by simp)
  exact ⟨by rw [hv1, hval x h1 h2 v hv2], hval x h1 h2⟩

/-- **C55.** Whenever the matching error at `E` is zero, the eigenfunction that is returned is one
single solution on the whole domain: at every point its value and derivative are the same constant
multiple of what propagating the left boundary values gives, from whichever side of the matching
point it is computed; evaluating in either of the two sectors that share a point gives the same
result. -/
theorem C55_eigenfunction_single_solution {P : Prob K} {E : K} (g : P.Good E true) (pi : K) (sqrt : K → K)
    (hsqrt : ∀ t, 0 < t → sqrt t ≠ 0) (hmi : P.matchIndex < P.secs.length) (l r : Y K) (hl : ¬ (l.y = 0 ∧ l.dy = 0)) (hr : ¬ (r.y = 0 ∧ r.dy = 0))
    (err : K × K × K) (herr : P.matchingError pi E l r true = .ok err) (h0 : err.1 = 0) :
    ∃ f κ d, eigenfunction sqrt P E l r = .ok f ∧ κ ≠ 0 ∧ d ≠ 0 ∧ f.WF ∧
      (∀ x, P.dmin ≤ x → x ≤ P.dmax → ∃ u, P.propagate pi E l P.dmin x true = .ok u ∧
        f.eval x = .ok (κ * u.1.y, κ * u.1.dy) ∧ ∀ v, f.IsValueAt x v → v = (κ * u.1.y, κ * u.1.dy)) ∧
      ∀ x, P.dmin ≤ x → x ≤ P.dmax → ∃ u, P.propagate pi E r P.dmax x true = .ok u ∧
        f.eval x = .ok (d * u.1.y, d * u.1.dy) := by
  have hmp := matchIndex_point g hmi
  have hd : P.dmin ≤ P.dmax := hmp.1.trans hmp.2
  obtain ⟨f, c, yl, yr, hf, hc, hn, hwf, -, -, -, hev, hprop⟩ := eigenfunction_core g pi sqrt hsqrt hmi l r hl hr err herr h0
  have hκ0 := one_div_ne_zero hn
  refine ⟨f, _, 1 / normOf sqrt yl yr * c, hf, hκ0, mul_ne_zero hκ0 hc, hwf, ?_, ?_⟩
  · intro x h1 h2
    obtain ⟨θ, q⟩ := propagate_eq_Phi g pi l ⟨le_rfl, hd⟩ ⟨h1, h2⟩
    exact ⟨_, q, hev x h1 h2⟩
  · intro x h1 h2
    obtain ⟨θ, q⟩ := propagate_eq_Phi g pi r ⟨hd, le_rfl⟩ ⟨h1, h2⟩
    refine ⟨_, q, ?_⟩
    rw [(hev x h1 h2).1, (hprop x h1 h2).1, (hprop x h1 h2).2]
    simp only [mul_assoc]

/-- Non-vacuity: at `E = 5` the left solution with Dirichlet values reaches `(2, 11)` at the right end,
so `(4, 22)` on the right gives zero matching error; the two sectors are computed from different sides
and the eigenfunction evaluated at the matching point and inside each sector is a multiple of the left
solution. -/
example : (exProb ℚ).Good 5 true ∧ ((exProb ℚ).matchingError 3 5 ⟨0, 1, 0, 0⟩ ⟨4, 22, 0, 0⟩ true).map (fun e => e.1) = .ok 0 ∧
    ((eigenfunction (fun t => t) (exProb ℚ) 5 ⟨0, 1, 0, 0⟩ ⟨4, 22, 0, 0⟩).bind (fun f => f.eval 1)).isOk = true :=
  ⟨exProb_good _ _, by decide +kernel, by decide +kernel⟩

end exact

/-! ## C56: normalisation -/
section analysis
open MeasureTheory

/-- A solution `y` of `y'' = (V - E) y` on `[a, b]` together with its derivative with respect to the energy,
`z'' = (V - E) z - y`; `V` may jump at countably many points. -/
structure Family (V : ℝ → ℝ) (E a b : ℝ) (F : ℝ → Y ℝ) : Prop where
  cy : ContinuousOn (fun x => (F x).y) (Set.Icc a b)
  cdy : ContinuousOn (fun x => (F x).dy) (Set.Icc a b)
  cz : ContinuousOn (fun x => (F x).yE) (Set.Icc a b)
  cdz : ContinuousOn (fun x => (F x).dyE) (Set.Icc a b)
  ode : ∃ S : Set ℝ, S.Countable ∧ ∀ x ∈ Set.Ioo a b \ S,
    HasDerivAt (fun x => (F x).y) (F x).dy x ∧ HasDerivAt (fun x => (F x).dy) ((V x - E) * (F x).y) x ∧
    HasDerivAt (fun x => (F x).yE) (F x).dyE x ∧ HasDerivAt (fun x => (F x).dyE) ((V x - E) * (F x).yE - (F x).y) x

/-- The integral of `y²` is the change of `z y' - z' y`. -/
theorem Family.integral_sq {V : ℝ → ℝ} {E a b : ℝ} {F : ℝ → Y ℝ} (h : Family V E a b F) {c d : ℝ} (hac : a ≤ c) (hcd : c ≤ d) (hdb : d ≤ b) :
    ∫ x in c..d, (F x).y ^ 2 = ((F d).yE * (F d).dy - (F d).dyE * (F d).y) - ((F c).yE * (F c).dy - (F c).dyE * (F c).y) := by
  obtain ⟨S, hS, ho⟩ := h.ode
  have hsub : Set.Icc c d ⊆ Set.Icc a b := Set.Icc_subset_Icc hac hdb
  have hc : ContinuousOn (fun x => (F x).yE * (F x).dy - (F x).dyE * (F x).y) (Set.Icc c d) :=
    ((h.cz.mul h.cdy).sub (h.cdz.mul h.cy)).mono hsub
  refine integral_eq_of_hasDerivAt_off_countable_of_le (fun x => (F x).yE * (F x).dy - (F x).dyE * (F x).y) _ hcd hS hc ?_ ?_
  · rintro x ⟨hx, hxS⟩
    obtain ⟨h1, h2, h3, h4⟩ := ho x ⟨⟨hac.trans_lt hx.1, hx.2.trans_le hdb⟩, hxS⟩
    exact ((h3.mul h2).sub (h4.mul h1)).congr_deriv (by ring)
  · exact ((h.cy.mono hsub).pow 2).intervalIntegrable_of_Icc hcd

/-- A nonzero solution has positive norm. -/
theorem Family.integral_pos {V : ℝ → ℝ} {E a b : ℝ} {F : ℝ → Y ℝ} (h : Family V E a b F) (hab : a < b)
    (hne : ¬ ((F a).y = 0 ∧ (F a).dy = 0)) : 0 < ∫ x in a..b, (F x).y ^ 2 := by
  refine intervalIntegral.integral_pos hab (h.cy.pow 2) (fun x _ => sq_nonneg _) ?_
  by_contra hno
  push Not at hno
  have hz : ∀ x ∈ Set.Icc a b, (F x).y = 0 := fun x hx => by
    have := hno x hx
    have h2 : (F x).y ^ 2 = 0 := le_antisymm this (sq_nonneg _)
    exact pow_eq_zero_iff (two_ne_zero) |>.mp h2
  obtain ⟨S, hS, ho⟩ := h.ode
  -- `y' = 0` off a countable set, hence everywhere
  have hdz : ∫ x in a..b, (0 : ℝ) = (F b).y - (F a).y := by simp [hz a ⟨le_rfl, hab.le⟩, hz b ⟨hab.le, le_rfl⟩]
  have hd0 : ∀ x ∈ Set.Ioo a b \ S, (F x).dy = 0 := by
    rintro x ⟨hx, hxS⟩
    have h1 := (ho x ⟨hx, hxS⟩).1
    have h2 : HasDerivAt (fun x => (F x).y) 0 x := by
      refine (hasDerivAt_const x (0 : ℝ)).congr_of_eventuallyEq ?_
      filter_upwards [Ioo_mem_nhds hx.1 hx.2] with t ht
      exact hz t ⟨ht.1.le, ht.2.le⟩
    exact h1.unique h2
  apply hne
  refine ⟨hz a ⟨le_rfl, hab.le⟩, ?_⟩
  by_contra hda
  have hc := h.cdy a ⟨le_rfl, hab.le⟩
  have hev : ∀ᶠ x in nhdsWithin a (Set.Icc a b), (F x).dy ≠ 0 := hc.eventually_ne hda
  have hev' : ∀ᶠ x in nhdsWithin a (Set.Ioi a), (F x).dy ≠ 0 :=
    Filter.Eventually.filter_mono (nhdsWithin_le_iff.mpr (Filter.mem_of_superset (Ioc_mem_nhdsGT hab) (fun x (hx : x ∈ Set.Ioc a b) => (⟨hx.1.le, hx.2⟩ : x ∈ Set.Icc a b)))) hev
  obtain ⟨u, hu, hsub⟩ := (mem_nhdsGT_iff_exists_Ioo_subset).mp hev'
  have hu' : a < min u b := lt_min hu hab
  have hunc : ¬ (Set.Ioo a (min u b)).Countable := by
    intro hcnt
    exact absurd hcnt (Cardinal.Real.Ioo_countable_iff.not.mpr (not_le.mpr hu'))
  apply hunc
  refine hS.mono (fun x hx => ?_)
  by_contra hxS
  exact hsub ⟨hx.1, hx.2.trans_le (min_le_left _ _)⟩ (hd0 x ⟨⟨hx.1, hx.2.trans_le (min_le_right _ _)⟩, hxS⟩)

/-- **C56.** Suppose propagation is exact: propagating the left boundary values gives a solution and its
energy derivative at every point, and so does propagating the right boundary values. Then, when the matching error is
zero, the eigenfunction that is returned has integral of its square over the domain equal to one. -/
theorem C56_unit_norm {P : Prob ℝ} {E : ℝ} (g : P.Good E true) (pi : ℝ) (hmi : P.matchIndex < P.secs.length)
    (l r : Y ℝ) (hl : ¬ (l.y = 0 ∧ l.dy = 0)) (hr : ¬ (r.y = 0 ∧ r.dy = 0)) (hlE : l.yE = 0 ∧ l.dyE = 0) (hrE : r.yE = 0 ∧ r.dyE = 0)
    (err : ℝ × ℝ × ℝ) (herr : P.matchingError pi E l r true = .ok err) (h0 : err.1 = 0)
    (V : ℝ → ℝ) (F G : ℝ → Y ℝ) (hF : Family V E P.dmin P.dmax F) (hG : Family V E P.dmin P.dmax G)
    (hFp : ∀ x, P.dmin ≤ x → x ≤ P.dmax → ∃ θ, P.propagate pi E l P.dmin x true = .ok (F x, θ))
    (hGp : ∀ x, P.dmin ≤ x → x ≤ P.dmax → ∃ θ, P.propagate pi E r P.dmax x true = .ok (G x, θ)) :
    ∃ f, ∃ u du : ℝ → ℝ, eigenfunction Real.sqrt P E l r = .ok f ∧
      (∀ x, P.dmin ≤ x → x ≤ P.dmax → f.eval x = .ok (u x, du x)) ∧ ∫ x in P.dmin..P.dmax, u x ^ 2 = 1 := by
  have hmp := matchIndex_point g hmi
  have hd : P.dmin ≤ P.dmax := hmp.1.trans hmp.2
  obtain ⟨f, c, yl, yr, hf, hc, hn, hwf, hyl, hyr, hmf, hev, hprop⟩ :=
    eigenfunction_core g pi Real.sqrt (fun t ht => (Real.sqrt_pos.mpr ht).ne') hmi l r hl hr err herr h0
  have eF : ∀ x, P.dmin ≤ x → x ≤ P.dmax → (P.Phi E true x * (P.Phi E true P.dmin)⁻¹) l = F x := by
    intro x h1 h2
    obtain ⟨θ, q⟩ := propagate_eq_Phi g pi l ⟨le_rfl, hd⟩ ⟨h1, h2⟩
    obtain ⟨θ', q'⟩ := hFp x h1 h2
    rw [q] at q'
    injection q' with q'
    exact congrArg Prod.fst q'
  have eG : ∀ x, P.dmin ≤ x → x ≤ P.dmax → (P.Phi E true x * (P.Phi E true P.dmax)⁻¹) r = G x := by
    intro x h1 h2
    obtain ⟨θ, q⟩ := propagate_eq_Phi g pi r ⟨hd, le_rfl⟩ ⟨h1, h2⟩
    obtain ⟨θ', q'⟩ := hGp x h1 h2
    rw [q] at q'
    injection q' with q'
    exact congrArg Prod.fst q'
  have hpm := pt_in g.mesh (show P.matchIndex + 1 ≤ P.secs.length by omega)
  set xm := pt P (P.matchIndex + 1) with hxm
  rw [eF _ hpm.1 hpm.2] at hyl
  rw [eG _ hpm.1 hpm.2] at hyr
  have F0 : F P.dmin = l := by rw [← eF _ le_rfl hd]; simp
  have G0 : G P.dmax = r := by rw [← eG _ hd le_rfl]; simp
  have hFG : ∀ x, P.dmin ≤ x → x ≤ P.dmax → (F x).y = c * (G x).y := fun x h1 h2 => by
    have := (hprop x h1 h2).1
    rwa [eF x h1 h2, eG x h1 h2] at this
  have hlt : P.dmin < P.dmax := by
    have hl := hmi
    have h1 := (g.secs _ (List.getElem_mem hmi)).lt
    have h2 := pt_in g.mesh (show P.matchIndex ≤ P.secs.length by omega)
    rw [← pt_min g.mesh hmi] at h2
    exact h2.1.trans_lt (h1.trans_le hmp.2)
  have i1 := hF.integral_sq le_rfl hpm.1 hpm.2
  rw [F0, hlE.1, hlE.2] at i1
  have i2 := hG.integral_sq hpm.1 hpm.2 le_rfl
  rw [G0, hrE.1, hrE.2] at i2
  have i3 : ∫ x in xm..P.dmax, (F x).y ^ 2 = c ^ 2 * ∫ x in xm..P.dmax, (G x).y ^ 2 := by
    rw [← intervalIntegral.integral_const_mul]
    refine intervalIntegral.integral_congr (fun x hx => ?_)
    rw [Set.uIcc_of_le hpm.2] at hx
    rw [hFG x (hpm.1.trans hx.1) hx.2]; ring
  have hint : ∀ p q, P.dmin ≤ p → p ≤ q → q ≤ P.dmax → IntervalIntegrable (fun x => (F x).y ^ 2) volume p q := fun p q h1 h2 h3 =>
    ((hF.cy.mono (Set.Icc_subset_Icc h1 h3)).pow 2).intervalIntegrable_of_Icc h2
  have htot : squaredNorm yl yr = ∫ x in P.dmin..P.dmax, (F x).y ^ 2 := by
    rw [← intervalIntegral.integral_add_adjacent_intervals (hint _ _ le_rfl hpm.1 hpm.2) (hint _ _ hpm.1 hpm.2 le_rfl), i3, i1, i2]
    unfold squaredNorm
    simp only [hmf]
    rw [hyl, hyr]
    ring
  have hpos : 0 < squaredNorm yl yr := by
    rw [htot]
    exact hF.integral_pos hlt (by rw [F0]; exact hl)
  have hnorm : normOf Real.sqrt yl yr = Real.sqrt (squaredNorm yl yr) := by
    unfold normOf
    rw [if_pos (by simpa using hpos)]
  refine ⟨f, fun x => 1 / normOf Real.sqrt yl yr * (F x).y, fun x => 1 / normOf Real.sqrt yl yr * (F x).dy, hf, ?_, ?_⟩
  · intro x h1 h2
    rw [(hev x h1 h2).1, eF x h1 h2]
  · simp only [mul_pow]
    rw [intervalIntegral.integral_const_mul, ← htot, hnorm, div_pow, Real.sq_sqrt hpos.le]
    field_simp

/-- If in every sector the transfer matrices map the values of `F` at the start of the sector to its values
inside, then propagation follows `F` over the whole domain. -/
theorem follows_of_sectors {P : Prob ℝ} {E : ℝ} (g : P.Good E true) (pi : ℝ) (F : ℝ → Y ℝ)
    (hf : ∀ s ∈ P.secs, s.dir = .forward → ∀ x, s.min < x → x ≤ s.max → F x = (s.tr E (x - s.min) true).mul (F s.min))
    (hb : ∀ s ∈ P.secs, s.dir = .backward → ∀ x, s.min ≤ x → x < s.max → F x = ((s.tr E (s.max - x) true).mul (F s.max).reverse).reverse)
    {a b : ℝ} (ha : P.dmin ≤ a ∧ a ≤ P.dmax) (hb' : P.dmin ≤ b ∧ b ≤ P.dmax) : ∃ θ, P.propagate pi E (F a) a b true = .ok (F b, θ) := by
  -- inside one sector
  have hsec : ∀ i (hi : i < P.secs.length) x, (P.secs[i]).min ≤ x → x ≤ (P.secs[i]).max →
      F x = ((P.secs[i]).M E true x) (F (if (P.secs[i]).dir = .backward then (P.secs[i]).max else (P.secs[i]).min)) := by
    intro i hi x h1 h2
    have gs := g.secs _ (List.getElem_mem hi)
    unfold PSec.M
    rcases gs.dir with hd | hd
    · have hnb : (P.secs[i]).dir ≠ .backward := by simp [hd]
      rw [if_neg hnb, if_neg hnb]
      split
      · next h => simp [le_antisymm h h1]
      · next h =>
        push Not at h
        have hm : min (x - (P.secs[i]).min) (P.secs[i]).h = x - (P.secs[i]).min := min_eq_left (by rw [gs.h_eq]; linarith)
        rw [hm, ofT_apply (gs.uni _ (by linarith) (by rw [gs.h_eq]; linarith))]
        exact hf _ (List.getElem_mem hi) hd x h h2
    · rw [if_pos hd, if_pos hd]
      split
      · next h => simp [le_antisymm h2 h]
      · next h =>
        push Not at h
        have hm : min ((P.secs[i]).max - x) (P.secs[i]).h = (P.secs[i]).max - x := min_eq_left (by rw [gs.h_eq]; linarith)
        rw [hm]
        simp only [Equiv.Perm.mul_apply]
        rw [ofT_apply (gs.uni _ (by linarith) (by rw [gs.h_eq]; linarith))]
        exact hb _ (List.getElem_mem hi) hd x h1 h
  have hglob : ∀ i (hi : i < P.secs.length) x y, (P.secs[i]).min ≤ x → x ≤ (P.secs[i]).max → (P.secs[i]).min ≤ y → y ≤ (P.secs[i]).max →
      (P.Phi E true x)⁻¹ (F x) = (P.Phi E true y)⁻¹ (F y) := by
    intro i hi x y h1 h2 h3 h4
    have e := sector_global g hi (F x) ⟨h1, h2⟩ ⟨h3, h4⟩
    rw [sector_step (g.secs _ (List.getElem_mem hi)), hsec i hi x h1 h2] at e
    rw [← Equiv.Perm.mul_apply] at e
    rw [show ((P.secs[i]).M E true y * ((P.secs[i]).M E true x)⁻¹ * (P.secs[i]).M E true x) = (P.secs[i]).M E true y by group, ← hsec i hi y h3 h4,
      ← hsec i hi x h1 h2] at e
    rw [e, ← Equiv.Perm.mul_apply]
    congr 1
    group
  have hpt : ∀ j, j ≤ P.secs.length → (P.Phi E true (pt P j))⁻¹ (F (pt P j)) = (P.Phi E true P.dmin)⁻¹ (F P.dmin) := by
    intro j
    induction j with
    | zero => intro _; rfl
    | succ j ih =>
      intro hj
      have hj' : j < P.secs.length := by omega
      have hlt := (g.secs _ (List.getElem_mem hj')).lt
      rw [← ih (by omega), ← pt_min g.mesh hj', ← pt_max P hj']
      exact hglob j hj' _ _ hlt.le le_rfl le_rfl hlt.le
  have hall : ∀ x, P.dmin ≤ x ∧ x ≤ P.dmax → (P.Phi E true x)⁻¹ (F x) = (P.Phi E true P.dmin)⁻¹ (F P.dmin) := by
    intro x hx
    obtain ⟨i, hi, hc⟩ := g.mesh.exists_sector (x := x) (by simpa [domainContains] using hx)
    have hi' : i < P.secs.length := by rw [← mesh_length]; exact hi
    rw [mesh_get P i hi'] at hc
    simp only [Sec.contains, Bool.and_eq_true, ccmp_le, decide_eq_true_eq] at hc
    rw [← hpt i (by omega), ← pt_min g.mesh hi']
    exact hglob i hi' _ _ hc.2 hc.1 le_rfl (g.secs _ (List.getElem_mem hi')).lt.le
  obtain ⟨θ, q⟩ := propagate_eq_Phi g pi (F a) ha hb'
  refine ⟨θ, ?_⟩
  rw [q, Equiv.Perm.mul_apply, hall a ha, ← hall b hb', ← Equiv.Perm.mul_apply]
  simp

/-- The free particle at energy zero: `y'' = 0`, `z'' = -y`. -/
noncomputable def flatT (δ : ℝ) : T ℝ := ⟨⟨1, δ, 0, 1⟩, ⟨-δ ^ 2 / 2, -δ ^ 3 / 6, -δ, -δ ^ 2 / 2⟩⟩

/-- two sectors, matched at 1 -/
noncomputable def flatProb : Prob ℝ where
  secs := [⟨⟨0, 1, .forward⟩, 1, fun _ δ _ => flatT δ, fun _ _ => 0, fun _ _ _ _ => 0⟩,
    ⟨⟨1, 2, .backward⟩, 1, fun _ δ _ => flatT δ, fun _ _ => 0, fun _ _ _ _ => 0⟩]
  dmin := 0
  dmax := 2
  matchIndex := 0

theorem flatProb_good : flatProb.Good 0 true where
  mesh := exProb_mesh
  secs := by
    intro s hs
    have uni : ∀ δ, (flatT δ).Unimodular := fun δ => by constructor <;> simp only [flatT, M2.det] <;> ring
    simp only [flatProb, List.mem_cons, List.not_mem_nil, or_false] at hs
    rcases hs with rfl | rfl
    · exact ⟨by simp, by simp, Or.inl rfl, fun δ _ _ => uni δ⟩
    · exact ⟨by norm_num, by norm_num, Or.inr rfl, fun δ _ _ => uni δ⟩

/-- left solution `y = x` with its energy derivative -/
noncomputable def flatL (x : ℝ) : Y ℝ := ⟨x, 1, -x ^ 3 / 6, -x ^ 2 / 2⟩
/-- right solution, half of it -/
noncomputable def flatR (x : ℝ) : Y ℝ := ⟨x / 2, 1 / 2, (-x ^ 3 / 6 + 2 * x - 8 / 3) / 2, (-x ^ 2 / 2 + 2) / 2⟩

theorem flatL_family : Family (fun _ => 0) 0 0 2 flatL where
  cy := by simp only [flatL]; fun_prop
  cdy := by simp only [flatL]; fun_prop
  cz := by simp only [flatL]; fun_prop
  cdz := by simp only [flatL]; fun_prop
  ode := ⟨∅, Set.countable_empty, fun x _ => by
    simp only [flatL]
    refine ⟨hasDerivAt_id x, (hasDerivAt_const x (1 : ℝ)).congr_deriv (by ring), ?_, ?_⟩
    · exact (((hasDerivAt_id x).fun_pow 3).fun_neg.div_const 6).congr_deriv (by simp; ring)
    · exact (((hasDerivAt_id x).fun_pow 2).fun_neg.div_const 2).congr_deriv (by simp; ring)⟩

theorem flatR_family : Family (fun _ => 0) 0 0 2 flatR where
  cy := by simp only [flatR]; fun_prop
  cdy := by simp only [flatR]; fun_prop
  cz := by simp only [flatR]; fun_prop
  cdz := by simp only [flatR]; fun_prop
  ode := ⟨∅, Set.countable_empty, fun x _ => by
    simp only [flatR]
    refine ⟨(hasDerivAt_id x).div_const 2, (hasDerivAt_const x (1 / 2 : ℝ)).congr_deriv (by ring), ?_, ?_⟩
    · exact ((((((hasDerivAt_id x).fun_pow 3).fun_neg.div_const 6).fun_add ((hasDerivAt_id x).const_mul 2)).sub_const (8 / 3)).div_const 2).congr_deriv (by simp; ring)
    · exact (((((hasDerivAt_id x).fun_pow 2).fun_neg.div_const 2).add_const 2).div_const 2).congr_deriv (by simp; ring)⟩

theorem flat_follows (F : ℝ → Y ℝ) (hF : F = flatL ∨ F = flatR) {a b : ℝ} (ha : 0 ≤ a ∧ a ≤ 2) (hb : 0 ≤ b ∧ b ≤ 2) :
    ∃ θ, flatProb.propagate 3 0 (F a) a b true = .ok (F b, θ) := by
  refine follows_of_sectors flatProb_good 3 F ?_ ?_ ha hb
  · intro s hs hd x _ _
    simp only [flatProb, List.mem_cons, List.not_mem_nil, or_false] at hs
    rcases hs with rfl | rfl
    · rcases hF with rfl | rfl <;> simp only [flatL, flatR, flatT, T.mul, M2.mulVec] <;> congr 1 <;> ring
    · simp at hd
  · intro s hs hd x _ _
    simp only [flatProb, List.mem_cons, List.not_mem_nil, or_false] at hs
    rcases hs with rfl | rfl
    · simp at hd
    · rcases hF with rfl | rfl <;> simp only [flatL, flatR, flatT, T.mul, M2.mulVec, Y.reverse] <;> congr 1 <;> ring

/-- Non-vacuity: `y = x` on `[0, 2]` (Dirichlet on the left, `2 y' = y` on the right), matched at `1`; the two sides use different
solutions (`x` and `x / 2`). -/
example : ∃ f, ∃ u du : ℝ → ℝ, eigenfunction Real.sqrt flatProb 0 ⟨0, 1, 0, 0⟩ ⟨1, 1 / 2, 0, 0⟩ = .ok f ∧
    (∀ x, 0 ≤ x → x ≤ 2 → f.eval x = .ok (u x, du x)) ∧ ∫ x in (0:ℝ)..2, u x ^ 2 = 1 := by
  have eL : flatL 0 = ⟨0, 1, 0, 0⟩ := by simp [flatL]
  have eR : flatR 2 = ⟨1, 1 / 2, 0, 0⟩ := by simp only [flatR]; congr 1 <;> norm_num
  have hmi : flatProb.matchIndex < flatProb.secs.length := by simp [flatProb]
  obtain ⟨ul, vr, θ, h1, h2, h3⟩ := matchingError_eq flatProb_good 3 hmi (flatL 0) (flatR 2)
  obtain ⟨t1, q1⟩ := flat_follows flatL (Or.inl rfl) (a := 0) (b := 1) (by norm_num) (by norm_num)
  obtain ⟨t2, q2⟩ := flat_follows flatR (Or.inr rfl) (a := 2) (b := 1) (by norm_num) (by norm_num)
  have h1' : flatProb.propagate 3 0 (flatL 0) 0 1 true = .ok ul := h1
  have h2' : flatProb.propagate 3 0 (flatR 2) 2 1 true = .ok vr := h2
  rw [q1] at h1'; rw [q2] at h2'
  injection h1' with h1'; injection h2' with h2'
  subst h1' h2'
  rw [← eL, ← eR]
  refine C56_unit_norm flatProb_good 3 hmi _ _ (by simp [flatL]) (by simp [flatR]) (by simp [flatL]) (by simp only [flatR]; constructor <;> norm_num) _ h3
    (by simp only [flatL, flatR]; norm_num) (fun _ => 0) flatL flatR flatL_family flatR_family ?_ ?_
  · intro x h1 h2
    exact flat_follows flatL (Or.inl rfl) (by norm_num) ⟨h1, h2⟩
  · intro x h1 h2
    exact flat_follows flatR (Or.inr rfl) (by norm_num) ⟨h1, h2⟩

end analysis
end Verif.Eigen
