import Verif.Lemmas.Walk

/-!
# Invariants of `Matscs::propagate` along the walk
-/
namespace Verif.Matscs
open Verif.Mesh Verif.Spec

variable {K S : Type} [Field K] [LinearOrder K] [IsStrictOrderedRing K]

/-- The point of the sector nearest to `x`. -/
def clampTo (s : Sec K) (x : K) : K := max s.min (min x s.max)

/-- `δ` cut off at `h` and `-h`. -/
def clip (h δ : K) : K := if h < δ then h else if δ < -h then -h else δ

/-- A step to or from the reference point of the sector. -/
def RefStep (s : Sec K) (p p' δ : K) : Prop :=
  (s.dir = .forward ∧ ((p' = s.min ∧ δ < 0) ∨ (p = s.min ∧ 0 < δ))) ∨ (s.dir = .backward ∧ ((p' = s.max ∧ 0 < δ) ∨ (p = s.max ∧ δ < 0)))

/-- What one `propagateDelta` call in sector `s` does to an invariant `Q` that depends on the position. -/
def StepInv (rev : S → S) (dArg : S → S → K → K) (s : GSec K S) (E : K) (useH : Bool) (Q : K → S × K → Prop) : Prop :=
  ∀ (p p' δ : K) (st : S × K), p ∈ Set.Icc s.min s.max → p' ∈ Set.Icc s.min s.max → clip s.h δ = p' - p → RefStep s.toSec p p' δ →
    Q p st → Q p' (s.propagateDelta rev E useH st.1 δ, st.2 + dArg st.1 (s.propagateDelta rev E useH st.1 δ) δ)

theorem sector_trace {rev : S → S} {dArg : S → S → K → K} {s : GSec K S} {E : K} {useH : Bool} {Q : K → S × K → Prop}
    (hlt : s.min ≤ s.max) (hh : s.h = s.max - s.min) (hdir : s.dir = .forward ∨ s.dir = .backward)
    (H : StepInv rev dArg s E useH Q) {a b : K} {st : S × K} (h0 : Q (clampTo s.toSec a) st) :
    Q (clampTo s.toSec b) ((s.propagateArg rev dArg E useH st.1 a b).1, st.2 + (s.propagateArg rev dArg E useH st.1 a b).2) := by
  have hcl : ∀ x, clampTo s.toSec x ∈ Set.Icc s.min s.max := fun x => ⟨le_max_left _ _, max_le hlt (min_le_right _ _)⟩
  have mmin : s.min ∈ Set.Icc s.min s.max := ⟨le_rfl, hlt⟩
  have mmax : s.max ∈ Set.Icc s.min s.max := ⟨hlt, le_rfl⟩
  have clo : ∀ x, x ≤ s.min → clampTo s.toSec x = s.min := fun x hx => by
    unfold clampTo; exact max_eq_left ((min_le_left _ _).trans hx)
  have chi : ∀ x, s.max ≤ x → clampTo s.toSec x = s.max := fun x hx => by
    unfold clampTo; rw [min_eq_right hx, max_eq_right hlt]
  have cmid : ∀ x, s.min ≤ x → x ≤ s.max → clampTo s.toSec x = x := fun x h1 h2 => by
    unfold clampTo; rw [min_eq_left h2, max_eq_right h1]
  have k1 : ∀ x, s.min < x → clip s.h (s.min - x) = s.min - clampTo s.toSec x := by
    intro x hx
    unfold clip
    rw [hh, if_neg (by linarith)]
    by_cases h : x ≤ s.max
    · rw [if_neg (by linarith), cmid x hx.le h]
    · rw [if_pos (by linarith), chi x (by linarith)]; ring
  have k2 : ∀ x, s.min < x → clip s.h (x - s.min) = clampTo s.toSec x - s.min := by
    intro x hx
    unfold clip
    rw [hh]
    by_cases h : x ≤ s.max
    · rw [if_neg (by linarith), if_neg (by linarith), cmid x hx.le h]
    · rw [if_pos (by linarith), chi x (by linarith)]
  have k3 : ∀ x, x < s.max → clip s.h (s.max - x) = s.max - clampTo s.toSec x := by
    intro x hx
    unfold clip
    rw [hh]
    by_cases h : s.min ≤ x
    · rw [if_neg (by linarith), if_neg (by linarith), cmid x h hx.le]
    · rw [if_pos (by linarith), clo x (by linarith)]
  have k4 : ∀ x, x < s.max → clip s.h (x - s.max) = clampTo s.toSec x - s.max := by
    intro x hx
    unfold clip
    rw [hh, if_neg (by linarith)]
    by_cases h : s.min ≤ x
    · rw [if_neg (by linarith), cmid x h hx.le]
    · rw [if_pos (by linarith), clo x (by linarith)]; ring
  unfold GSec.propagateArg
  simp only [ccmp_le, ccmp_lt]
  split
  · rename_i hcond
    rcases hdir with hd | hd
    · rw [if_pos hd]
      by_cases ha : s.min < a
      · have s1 := H _ s.min _ st (hcl a) mmin (k1 a ha) (.inl ⟨hd, .inl ⟨rfl, by linarith⟩⟩) h0
        by_cases hb : s.min < b
        · have s2 := H s.min _ (b - s.min) _ mmin (hcl b) (k2 b hb) (.inl ⟨hd, .inr ⟨rfl, by linarith⟩⟩) s1
          simp only [ha, hb, decide_true, if_true, zero_add]
          simp only [← add_assoc]
          exact s2
        · simp only [ha, hb, decide_true, decide_false, Bool.false_eq_true, if_true, if_false, zero_add]
          rw [clo b (not_lt.mp hb)]
          exact s1
      · rw [clo a (not_lt.mp ha)] at h0
        by_cases hb : s.min < b
        · have s2 := H s.min _ (b - s.min) _ mmin (hcl b) (k2 b hb) (.inl ⟨hd, .inr ⟨rfl, by linarith⟩⟩) h0
          simp only [ha, hb, decide_true, decide_false, Bool.false_eq_true, if_true, if_false, zero_add]
          exact s2
        · simp only [ha, hb, decide_false, Bool.false_eq_true, if_false, add_zero]
          rw [clo b (not_lt.mp hb)]
          exact h0
    · rw [if_neg (by rw [hd]; simp)]
      by_cases ha : a < s.max
      · have s1 := H _ s.max _ st (hcl a) mmax (k3 a ha) (.inr ⟨hd, .inl ⟨rfl, by linarith⟩⟩) h0
        by_cases hb : b < s.max
        · have s2 := H s.max _ (b - s.max) _ mmax (hcl b) (k4 b hb) (.inr ⟨hd, .inr ⟨rfl, by linarith⟩⟩) s1
          simp only [ha, hb, decide_true, if_true, zero_add]
          simp only [← add_assoc]
          exact s2
        · simp only [ha, hb, decide_true, decide_false, Bool.false_eq_true, if_true, if_false, zero_add]
          rw [chi b (not_lt.mp hb)]
          exact s1
      · rw [chi a (not_lt.mp ha)] at h0
        by_cases hb : b < s.max
        · have s2 := H s.max _ (b - s.max) _ mmax (hcl b) (k4 b hb) (.inr ⟨hd, .inr ⟨rfl, by linarith⟩⟩) h0
          simp only [ha, hb, decide_true, decide_false, Bool.false_eq_true, if_true, if_false, zero_add]
          exact s2
        · simp only [ha, hb, decide_false, Bool.false_eq_true, if_false, add_zero]
          rw [chi b (not_lt.mp hb)]
          exact h0
  · rename_i hcond
    simp only [Bool.not_eq_true, Bool.not_eq_false', Bool.or_eq_true, Bool.and_eq_true, decide_eq_true_eq] at hcond
    simp only [add_zero]
    rcases hcond with ⟨h1, h2⟩ | ⟨h1, h2⟩
    · rw [chi a h1] at h0; rw [chi b h2]; exact h0
    · rw [clo a h1] at h0; rw [clo b h2]; exact h0

omit [Field K] [IsStrictOrderedRing K] in
theorem clamp_eq {s : Sec K} {x : K} (h1 : s.min ≤ x) (h2 : x ≤ s.max) : clampTo s x = x := by
  unfold clampTo; rw [min_eq_left h2, max_eq_right h1]

/-- An invariant that every `propagateDelta` preserves holds at the end. -/
theorem arg_trace {rev : S → S} {dArg : Nat → K → S → S → K → K} {P : GProb K S} {E : K} {useH : Bool} {Q : K → S × K → Prop}
    (hm : IsMesh P.mesh P.xmin P.xmax) (hh : ∀ s ∈ P.secs, s.h = s.max - s.min) (hdir : ∀ s ∈ P.secs, s.dir = .forward ∨ s.dir = .backward)
    (H : ∀ k (hk : k < P.secs.length), StepInv rev (dArg k E) P.secs[k] E useH Q) {a b : K} (ha : P.xmin ≤ a ∧ a ≤ P.xmax) (hb : P.xmin ≤ b ∧ b ≤ P.xmax)
    {y : S} (h0 : Q a (y, 0)) : ∃ r, P.propagate rev dArg E y a b useH = .ok r ∧ Q b r := by
  have ha' : Mesh.domainContains P.xmin P.xmax a = true := by simpa [Mesh.domainContains] using ha
  have hb' : Mesh.domainContains P.xmin P.xmax b = true := by simpa [Mesh.domainContains] using hb
  obtain ⟨i, j, hi, hj, hf, hca, hcb, hup, hdn, he⟩ := walkG_closed hm a b ha' hb'
  simp only [Sec.contains, ccmp_le, Bool.and_eq_true, decide_eq_true_eq] at hca hcb
  have hlen := gmesh_length P
  rw [hlen] at hi hj
  rw [gmesh_get P i hi] at hca
  rw [gmesh_get P j hj] at hcb
  refine ⟨_, by
    unfold GProb.propagate
    rw [ha', hb', hf, Outcome.bind_ok, ← hlen, he]
    rfl, ?_⟩
  have ord : ∀ k (hk : k < P.secs.length), (P.secs[k]).min ≤ (P.secs[k]).max := by
    intro k hk
    have := hm.ordered (P.secs[k]).toSec (by unfold GProb.mesh; exact List.mem_map.mpr ⟨_, List.getElem_mem hk, rfl⟩)
    simpa using this
  have join : ∀ k (hk : k + 1 < P.secs.length), (P.secs[k]'(by omega)).max = (P.secs[k + 1]).min := by
    intro k hk
    have := hm.step k (by rw [hlen]; exact hk)
    rw [gmesh_get P k (by omega), gmesh_get P (k + 1) hk] at this
    simp only [ccmp_le, decide_eq_true_eq] at this
    exact le_antisymm this.1 this.2
  have step : ∀ k (hk : k < P.secs.length) st, Q (clampTo (P.secs[k]).toSec a) st → Q (clampTo (P.secs[k]).toSec b) (P.bodyArg rev dArg E useH a b k st) := by
    intro k hk st h
    unfold GProb.bodyArg
    rw [List.getElem?_eq_getElem hk]
    exact sector_trace (ord k hk) (hh _ (List.getElem_mem hk)) (hdir _ (List.getElem_mem hk)) (H k hk) h
  have mono : ∀ i j (_ : i ≤ j) (hj : j < P.secs.length), (P.secs[i]'(by omega)).max ≤ (P.secs[j]).max ∧ (P.secs[i]'(by omega)).min ≤ (P.secs[j]).min := by
    intro i j hij hj
    rcases Nat.eq_or_lt_of_le hij with rfl | h
    · exact ⟨le_rfl, le_rfl⟩
    · have h1 := mesh_le hm h (by rw [hlen]; exact hj)
      rw [gmesh_get P i (by omega), gmesh_get P j hj] at h1
      exact ⟨h1.trans (ord j hj), (ord i (by omega)).trans h1⟩
  rcases le_or_gt b a with hba | hab
  · have hij := hdn (by simpa using hba)
    have hv : visited i j = (List.range' j (i - j + 1)).reverse := by
      rcases Nat.eq_or_lt_of_le hij with h | h
      · subst h; simp [visited]
      · simp [visited, show ¬ i ≤ j by omega]
    rw [hv]
    have main : ∀ d, d ≤ i - j → ∀ (hk : i - d < P.secs.length), Q (clampTo (P.secs[i - d]).toSec b)
        ((List.range' (i - d) (d + 1)).reverse.foldl (fun st k => P.bodyArg rev dArg E useH a b k st) (y, 0)) := by
      intro d
      induction d with
      | zero =>
        intro _ hk
        simp only [Nat.zero_add, List.range'_one, List.reverse_singleton, List.foldl_cons, List.foldl_nil, Nat.sub_zero]
        exact step i hi _ (by rw [clamp_eq hca.2 hca.1]; exact h0)
      | succ d ih =>
        intro hd hk
        have hk' : i - d < P.secs.length := by omega
        have prev := ih (by omega) hk'
        have er : List.range' (i - (d + 1)) (d + 1 + 1) = (i - (d + 1)) :: List.range' (i - d) (d + 1) := by
          rw [List.range'_succ, show i - (d + 1) + 1 = i - d by omega]
        rw [er, List.reverse_cons, List.foldl_append]
        simp only [List.foldl_cons, List.foldl_nil]
        refine step _ hk _ ?_
        have e1 := join (i - (d + 1)) (by omega)
        have e2 : (P.secs[i - (d + 1) + 1]'(by omega)).min = (P.secs[i - d]).min := by
          have h : i - (d + 1) + 1 = i - d := by omega
          simp only [h]
        have hjk := (mono j (i - (d + 1)) (by omega) hk).1
        have hki := (mono (i - d) i (by omega) hi).2
        have hb1 : b ≤ (P.secs[i - d]).min := by rw [← e2, ← e1]; exact hcb.1.trans hjk
        have c1 : clampTo (P.secs[i - d]).toSec b = (P.secs[i - d]).min := by
          unfold clampTo; exact max_eq_left ((min_le_left _ _).trans hb1)
        have c2 : clampTo (P.secs[i - (d + 1)]).toSec a = (P.secs[i - (d + 1)]).max := by
          unfold clampTo
          rw [min_eq_right (by rw [e1, e2]; exact hki.trans hca.2), max_eq_right (ord _ hk)]
        rw [c1, ← e2, ← e1] at prev
        rw [c2]; exact prev
    have fin := main (i - j) le_rfl (by omega)
    have e : i - (i - j) = j := by omega
    simp only [e] at fin
    rw [clamp_eq hcb.2 hcb.1] at fin
    exact fin
  · have hij := hup (by simpa using hab)
    have hv : visited i j = List.range' i (j - i + 1) := by simp [visited, hij]
    rw [hv]
    have main : ∀ d, d ≤ j - i → ∀ (hk : i + d < P.secs.length), Q (clampTo (P.secs[i + d]).toSec b)
        ((List.range' i (d + 1)).foldl (fun st k => P.bodyArg rev dArg E useH a b k st) (y, 0)) := by
      intro d
      induction d with
      | zero =>
        intro _ hk
        simp only [Nat.zero_add, List.range'_one, List.foldl_cons, List.foldl_nil, Nat.add_zero]
        exact step i hi _ (by rw [clamp_eq hca.2 hca.1]; exact h0)
      | succ d ih =>
        intro hd hk
        have hk' : i + d < P.secs.length := by omega
        have prev := ih (by omega) hk'
        rw [List.range'_concat, List.foldl_append]
        simp only [List.foldl_cons, List.foldl_nil]
        rw [show i + 1 * (d + 1) = i + (d + 1) by omega]
        refine step _ hk _ ?_
        have e1 := join (i + d) hk
        have hjk := (mono (i + (d + 1)) j (by omega) hj).2
        have hki := (mono i (i + d) (by omega) hk').1
        have c1 : clampTo (P.secs[i + d]).toSec b = (P.secs[i + d]).max := by
          unfold clampTo
          rw [min_eq_right (by rw [e1]; exact hjk.trans hcb.2), max_eq_right (ord _ hk')]
        have c2 : clampTo (P.secs[i + (d + 1)]).toSec a = (P.secs[i + (d + 1)]).min := by
          unfold clampTo; exact max_eq_left ((min_le_left _ _).trans ((hca.1.trans hki).trans (le_of_eq e1)))
        rw [c1, e1] at prev
        rw [c2]; exact prev
    have fin := main (j - i) le_rfl (by omega)
    have e : i + (j - i) = j := by omega
    simp only [e] at fin
    rw [clamp_eq hcb.2 hcb.1] at fin
    exact fin


/-- `propagateDelta` cuts the length off itself. -/
theorem delta_clip {rev : S → S} {s : GSec K S} (hh : 0 < s.h) (E : K) (useH : Bool) (y : S) (δ : K) :
    s.propagateDelta rev E useH y (clip s.h δ) = s.propagateDelta rev E useH y δ := by
  have main : ∀ c δ : K, (0 ≤ c ↔ 0 ≤ δ) → (0 ≤ c → (if s.h < c then s.h else c) = if s.h < δ then s.h else δ) →
      (¬ 0 ≤ c → (if s.h < -c then s.h else -c) = if s.h < -δ then s.h else -δ) →
      (decide (0 ≤ c) = decide (0 ≤ δ)) ∧ (if decide (s.h < if decide (0 ≤ c) = true then c else -c) = true then s.h else if decide (0 ≤ c) = true then c else -c)
        = if decide (s.h < if decide (0 ≤ δ) = true then δ else -δ) = true then s.h else if decide (0 ≤ δ) = true then δ else -δ := by
    intro c δ h1 h2 h3
    refine ⟨decide_eq_decide.mpr h1, ?_⟩
    by_cases h : 0 ≤ c
    · simpa [h, h1.mp h] using h2 h
    · have h' : ¬ 0 ≤ δ := fun h' => h (h1.mpr h')
      simpa [h, h'] using h3 h
  have k1 : (0 ≤ clip s.h δ ↔ 0 ≤ δ) ∧ (0 ≤ -clip s.h δ ↔ 0 ≤ -δ) := by
    unfold clip
    split
    · constructor <;> constructor <;> intro <;> linarith
    · split
      · constructor <;> constructor <;> intro <;> linarith
      · exact ⟨Iff.rfl, Iff.rfl⟩
  have k2 : 0 ≤ clip s.h δ → (if s.h < clip s.h δ then s.h else clip s.h δ) = if s.h < δ then s.h else δ := by
    intro h
    have hd := k1.1.mp h
    unfold clip
    by_cases h1 : s.h < δ
    · simp [h1]
    · simp [h1, show ¬ δ < -s.h by linarith]
  have k3 : 0 ≤ -clip s.h δ → (if s.h < -clip s.h δ then s.h else -clip s.h δ) = if s.h < -δ then s.h else -δ := by
    intro h
    have hd := k1.2.mp h
    unfold clip
    by_cases h1 : s.h < -δ
    · simp [show ¬ s.h < δ by linarith, show δ < -s.h by linarith, h1]
    · simp [show ¬ s.h < δ by linarith, show ¬ δ < -s.h by linarith, h1]
  unfold GSec.propagateDelta
  simp only [ccmp_le, ccmp_lt]
  by_cases hb : s.dir = .backward
  · obtain ⟨e1, e2⟩ := main (-clip s.h δ) (-δ) k1.2 k3 (fun h => by
      have : 0 ≤ clip s.h δ := by linarith [not_le.mp h]
      simpa using k2 this)
    simp only [hb, if_true, e2]
    rw [e1]
  · obtain ⟨e1, e2⟩ := main (clip s.h δ) δ k1.1 k2 (fun h => k3 (by linarith [not_le.mp h]))
    simp only [hb, if_false, e2]
    rw [e1]

/-- Inside one sector the solution operator of the problem is that of the sector. -/
theorem phi_local {rev : S → S} {P : GProb K S} {E : K} {useH : Bool} (g : P.Good E useH) {k : Nat} (hk : k < P.secs.length) {p p' : K}
    (hp : p ∈ Set.Icc (P.secs[k]).min (P.secs[k]).max) (hp' : p' ∈ Set.Icc (P.secs[k]).min (P.secs[k]).max) :
    P.Phi rev E useH p' * (P.Phi rev E useH p)⁻¹ = (P.secs[k]).M rev E useH p' * ((P.secs[k]).M rev E useH p)⁻¹ := by
  have hst : StepsBy P.mesh (P.Nat' rev E useH) := by
    constructor
    · intro k hk x hx
      have hk' : k < P.secs.length := by rw [← gmesh_length]; exact hk
      rw [gmesh_get P k hk'] at hx
      simp only [GProb.Nat', List.getElem?_eq_getElem hk']
      exact N_left (g.secs _ (List.getElem_mem hk')) hx
    · intro k hk x hx
      have hk' : k < P.secs.length := by rw [← gmesh_length]; exact hk
      rw [gmesh_get P k hk'] at hx ⊢
      simp only [GProb.Nat', List.getElem?_eq_getElem hk']
      exact N_right (g.secs _ (List.getElem_mem hk')) hx
  have hlen := gmesh_length P
  have hkm : k < P.mesh.length := by rw [hlen]; exact hk
  have full : ∀ x, x ≤ (P.secs[k]).max → P.Phi rev E useH x = (P.secs[k]).N rev E useH x * Pi (P.Nat' rev E useH) x k := by
    intro x hx
    have := Pi_full g.mesh hst hkm (x := x) (by rw [gmesh_get P k hk]; exact hx) (P.mesh.length - (k + 1)) (by omega)
    rw [show k + 1 + (P.mesh.length - (k + 1)) = P.mesh.length by omega] at this
    unfold GProb.Phi
    rw [← hlen, this, Pi]
    simp only [GProb.Nat', List.getElem?_eq_getElem hk]
  have left : Pi (P.Nat' rev E useH) p k = Pi (P.Nat' rev E useH) p' k := by
    refine Pi_left hst k hkm.le ?_
    intro i hi hik
    have := mesh_le g.mesh hik hkm
    rw [gmesh_get P k hk] at this
    exact ⟨this.trans hp.1, this.trans hp'.1⟩
  rw [full p hp.2, full p' hp'.2, left, N_step]
  group

/-- One step along the propagated solution. -/
theorem phi_step {rev : S → S} (hrev : ∀ y, rev (rev y) = y) {P : GProb K S} {E : K} {useH : Bool} (g : P.Good E useH) {k : Nat} (hk : k < P.secs.length) {p p' δ : K}
    (hp : p ∈ Set.Icc (P.secs[k]).min (P.secs[k]).max) (hp' : p' ∈ Set.Icc (P.secs[k]).min (P.secs[k]).max) (hδ : clip (P.secs[k]).h δ = p' - p)
    (hr : RefStep (P.secs[k]).toSec p p' δ) (y : S) :
    (P.secs[k]).propagateDelta rev E useH y δ = (P.Phi rev E useH p' * (P.Phi rev E useH p)⁻¹) y := by
  have gs := g.secs _ (List.getElem_mem hk)
  have hh : 0 < (P.secs[k]).h := by rw [gs.h_eq]; linarith [gs.lt]
  rw [phi_local g hk hp hp', ← sector_step hrev gs y p p', ← delta_clip hh, hδ]
  have hsgn : (δ < 0 → p' < p) ∧ (0 < δ → p < p') := by
    unfold clip at hδ
    constructor
    · intro h
      rw [if_neg (by linarith)] at hδ
      split at hδ <;> linarith
    · intro h
      split at hδ
      · linarith
      · rw [if_neg (by linarith)] at hδ; linarith
  unfold GSec.propagate
  simp only [ccmp_le, ccmp_lt]
  have hlt := gs.lt
  rcases hr with ⟨hd, ⟨rfl, h⟩ | ⟨rfl, h⟩⟩ | ⟨hd, ⟨rfl, h⟩ | ⟨rfl, h⟩⟩
  · have := hsgn.1 h
    simp [hd, this, not_le.mpr this, not_le.mpr hlt]
  · have := hsgn.2 h
    simp [hd, this, not_le.mpr this, not_le.mpr hlt]
  · have := hsgn.2 h
    simp [hd, this, not_le.mpr this, not_le.mpr hlt]
  · have := hsgn.1 h
    simp [hd, this, not_le.mpr this, not_le.mpr hlt]

end Verif.Matscs
