import Verif.Lemmas.FlEigenAlg

/-!
# The loops of `propagationSteps` and the evaluation of the eigenfunction in finite precision, for any invariant
-/
namespace Verif.Fp
open Verif.Mesh Verif.YT Verif.Propag Verif.Eigen Verif.Solver

variable {fl : ℝ → ℝ} {P : Prob (Fl fl)} {E : Fl fl}

/-- the value part of a column -/
def prF (y : Y (Fl fl)) : Fl fl × Fl fl := (y.y, y.dy)

theorem forward_ind_fl (Q : ℕ → Y (Fl fl) → Prop) (step : ∀ k (hk : k < P.secs.length) c, Q k c → Q (k + 1) ((P.secs[k]).propagate E true c (P.secs[k]).min (P.secs[k]).max).1)
    (ys : ℕ → Y (Fl fl)) (h0 : Q 0 (ys 0)) : ∀ k, k ≤ P.secs.length → ∃ ys', forwardLoop P E k ys = .ok ys' ∧ ∀ j, j ≤ k → Q j (ys' j) := by
  intro k
  induction k with
  | zero => exact fun _ => ⟨ys, rfl, fun j hj => by obtain rfl : j = 0 := by omega
                                                    exact h0⟩
  | succ k ih =>
    intro hk
    obtain ⟨ys', h1, h2⟩ := ih (by omega)
    have hk' : k < P.secs.length := by omega
    refine ⟨fun j => if j = k + 1 then ((P.secs[k]).propagate E true (ys' k) (P.secs[k]).min (P.secs[k]).max).1 else ys' j, ?_, ?_⟩
    · simp only [forwardLoop, h1, Outcome.bind_ok, List.getElem?_eq_getElem hk', Outcome.pure_eq]
    · intro j hj
      simp only
      split
      · next e => subst e; exact step k hk' _ (h2 k le_rfl)
      · exact h2 j (by omega)

theorem backward_ind_fl (Q : ℕ → Y (Fl fl) → Prop) (step : ∀ k (hk : k < P.secs.length) c, Q (k + 1) c → Q k ((P.secs[k]).propagate E true c (P.secs[k]).max (P.secs[k]).min).1)
    (ys : ℕ → Y (Fl fl)) (h0 : Q P.secs.length (ys P.secs.length)) : ∀ k, k ≤ P.secs.length → ∃ ys', backwardLoop P E P.secs.length k ys = .ok ys' ∧
      (∀ j, P.secs.length - k ≤ j → j ≤ P.secs.length → Q j (ys' j)) ∧ ∀ j, j < P.secs.length - k → ys' j = ys j := by
  intro k
  induction k with
  | zero => exact fun _ => ⟨ys, rfl, fun j h1 h2 => by obtain rfl : j = P.secs.length := by omega
                                                       exact h0, fun _ _ => rfl⟩
  | succ k ih =>
    intro hk
    obtain ⟨ys', h1, h2, h3⟩ := ih (by omega)
    have hk' : P.secs.length - 1 - k < P.secs.length := by omega
    refine ⟨fun j => if j = P.secs.length - 1 - k then ((P.secs[P.secs.length - 1 - k]).propagate E true (ys' (P.secs.length - 1 - k + 1)) (P.secs[P.secs.length - 1 - k]).max (P.secs[P.secs.length - 1 - k]).min).1 else ys' j, ?_, ?_, ?_⟩
    · simp only [backwardLoop, h1, Outcome.bind_ok, List.getElem?_eq_getElem hk', Outcome.pure_eq]
    · intro j hj hj'
      simp only
      split
      · next e => subst e; exact step _ hk' _ (h2 _ (by omega) (by omega))
      · exact h2 j (by omega) hj'
    · intro j hj
      simp only
      rw [if_neg (by omega)]
      exact h3 j (by omega)

/-- The steps of the eigenfunction: multiples of propagated left or right values. -/
theorem steps_ind_fl (QL QR : ℕ → Y (Fl fl) → Prop) (hm : P.matchIndex < P.secs.length)
    (sL : ∀ k (hk : k < P.secs.length) c, QL k c → QL (k + 1) ((P.secs[k]).propagate E true c (P.secs[k]).min (P.secs[k]).max).1)
    (sR : ∀ k (hk : k < P.secs.length) c, QR (k + 1) c → QR k ((P.secs[k]).propagate E true c (P.secs[k]).max (P.secs[k]).min).1)
    {left right : Y (Fl fl)} (hL : QL 0 left) (hR : QR P.secs.length right) (sqrt : Fl fl → Fl fl) :
    ∃ steps yl yr, propagationSteps sqrt P E left right = .ok steps ∧ steps.length = P.secs.length + 1 ∧ QL (P.matchIndex + 1) yl ∧ QR (P.matchIndex + 1) yr ∧
      ∀ i (hi : i < steps.length), (∃ c, QL i c ∧ steps[i] = c.smul (CCmp.lit 1 / normOf sqrt yl yr)) ∨ ∃ c, QR i c ∧ steps[i] = c.smul (matchFactor yl yr / normOf sqrt yl yr) := by
  set n := P.secs.length with hn
  set m := P.matchIndex with hmd
  obtain ⟨ys1, e1, f1⟩ := forward_ind_fl (P := P) (E := E) QL sL (fun j => if j = 0 then left else ⟨0, 0, 0, 0⟩) (by simpa using hL) (m + 1) (by omega)
  obtain ⟨ys2, e2, b1, b2⟩ := backward_ind_fl (P := P) (E := E) QR sR (fun j => if j = n then right else ys1 j) (by simpa [hn] using hR) (n - 1 - m) (by omega)
  refine ⟨(List.range (n + 1)).map (fun i => if i ≤ m then (ys2 i).smul (CCmp.lit 1 / normOf sqrt (ys1 (m + 1)) (ys2 (m + 1)))
      else (ys2 i).smul (matchFactor (ys1 (m + 1)) (ys2 (m + 1)) / normOf sqrt (ys1 (m + 1)) (ys2 (m + 1)))), ys1 (m + 1), ys2 (m + 1), ?_, by simp, f1 _ le_rfl,
      b1 (m + 1) (by omega) (by omega), ?_⟩
  · unfold propagationSteps
    rw [← hn] at e2
    simp only [← hn, ← hmd, e1, e2, Outcome.bind_ok, Outcome.pure_eq]
  · intro i hi
    have hi' : i < n + 1 := by simpa using hi
    simp only [List.getElem_map, List.getElem_range]
    split
    · next him =>
      have h1 := b2 i (by omega)
      rw [if_neg (by omega : i ≠ n)] at h1
      left
      exact ⟨ys1 i, f1 i (by omega), by rw [h1]⟩
    · next him => exact .inr ⟨ys2 i, b1 i (by omega) (by omega), rfl⟩

/-- The eigenfunction: every value is a propagated step of the sector it lies in. -/
theorem eigen_values_fl {sqrt : Fl fl → Fl fl} {left right : Y (Fl fl)} (hmesh : IsMesh P.mesh P.dmin P.dmax) {steps : List (Y (Fl fl))} (hs : propagationSteps sqrt P E left right = .ok steps)
    (hlen : steps.length = P.secs.length + 1) :
    ∃ f, eigenfunction sqrt P E left right = .ok f ∧ f.WF ∧ f.dmin = P.dmin ∧ f.dmax = P.dmax ∧ ∀ x : Fl fl, P.dmin.val ≤ x.val → x.val ≤ P.dmax.val → ∀ v, f.IsValueAt x v →
      ∃ i, ∃ hi : i < P.secs.length, (P.secs[i]).min.val ≤ x.val ∧ x.val ≤ (P.secs[i]).max.val ∧
        ((∃ hj : i < steps.length, v = prF ((P.secs[i]).propagate E true steps[i] (P.secs[i]).min x).1) ∨
         ∃ hj : i + 1 < steps.length, v = prF ((P.secs[i]).propagate E true steps[i + 1] (P.secs[i]).max x).1) := by
  unfold eigenfunction
  rw [hs]
  refine ⟨_, rfl, ⟨hmesh, by simp only [mesh_length]; exact hlen⟩, rfl, rfl, ?_⟩
  intro x h1 h2 v hv
  rcases hv with ⟨ho, _⟩ | ⟨i, hi, hc, he⟩
  · have : domainContains P.dmin P.dmax x = true := by
      simp only [domainContains, Bool.and_eq_true, Fl.le_def, decide_eq_true_eq]
      exact ⟨h1, h2⟩
    simp only [this] at ho
    simp at ho
  · have hi' : i < P.secs.length := by rw [← mesh_length]; exact hi
    have hg := mesh_get P i hi'
    have a1 : i < steps.length := by omega
    have a2 : i + 1 < steps.length := by omega
    simp only [hg, Sec.contains, Bool.and_eq_true, Fl.le_def, decide_eq_true_eq] at hc
    refine ⟨i, hi', hc.2, hc.1, ?_⟩
    have him : i < P.mesh.length := by rw [mesh_length]; exact hi'
    unfold EigenObj.evalIn at he
    simp only [List.getElem?_eq_getElem him, List.getElem?_eq_getElem a1, List.getElem?_eq_getElem a2, List.getElem?_eq_getElem hi', hg] at he
    split at he
    · left; refine ⟨a1, ?_⟩; injection he with he; exact he.symm
    · right; refine ⟨a2, ?_⟩; injection he with he; exact he.symm

end Verif.Fp
