import Verif.Lemmas.MatscsDualSector

/-!
# Errors along a mesh, measured in any part of the state
-/
namespace Verif.NP
open Verif.Matscs Verif.Mesh Verif

/-- the part `pr` of a state that errors are measured in, and a state with any given part -/
structure Sect (S F : Type) where
  pr : S → F
  sc : F → S
  eq : ∀ e, pr (sc e) = e

section
variable {S F : Type} [NormedAddCommGroup F] {D : Sect S F}

/-- `N` and its inverse enlarge distances of the values by at most `exp κ`. -/
structure LipP (D : Sect S F) (κ : ℝ) (N : Equiv.Perm (S)) : Prop where
  fwd : ∀ u u' : S, ‖D.pr (N u) - D.pr (N u')‖ ≤ Real.exp κ * ‖D.pr u - D.pr u'‖
  bwd : ∀ u u' : S, ‖D.pr (N⁻¹ u) - D.pr (N⁻¹ u')‖ ≤ Real.exp κ * ‖D.pr u - D.pr u'‖

/-- `N` takes the values `Y` to within `e` of `Y'`. -/
def TracksP (D : Sect S F) (N : Equiv.Perm (S)) (Y Y' : F) (e : ℝ) : Prop := ∀ u : S, D.pr u = Y → ‖D.pr (N u) - Y'‖ ≤ e

theorem LipP.one : LipP D 0 (1 : Equiv.Perm (S)) := ⟨fun u u' => by simp, fun u u' => by simp⟩

theorem LipP.inv {κ : ℝ} {N : Equiv.Perm (S)} (h : LipP D κ N) : LipP D κ N⁻¹ := ⟨h.bwd, by rw [inv_inv]; exact h.fwd⟩

theorem LipP.mul {κ κ' : ℝ} {N N' : Equiv.Perm (S)} (h : LipP D κ N) (h' : LipP D κ' N') : LipP D (κ + κ') (N * N') := by
  constructor
  · intro u u'
    rw [Equiv.Perm.mul_apply, Equiv.Perm.mul_apply, Real.exp_add, mul_assoc]
    exact (h.fwd _ _).trans (mul_le_mul_of_nonneg_left (h'.fwd _ _) (Real.exp_pos _).le)
  · intro u u'
    rw [mul_inv_rev, Equiv.Perm.mul_apply, Equiv.Perm.mul_apply, add_comm κ, Real.exp_add, mul_assoc]
    exact (h'.bwd _ _).trans (mul_le_mul_of_nonneg_left (h.bwd _ _) (Real.exp_pos _).le)

theorem LipP.mono {κ κ' : ℝ} {N : Equiv.Perm (S)} (h : LipP D κ N) (hk : κ ≤ κ') : LipP D κ' N :=
  ⟨fun u u' => (h.fwd u u').trans (mul_le_mul_of_nonneg_right (Real.exp_le_exp.mpr hk) (norm_nonneg _)),
    fun u u' => (h.bwd u u').trans (mul_le_mul_of_nonneg_right (Real.exp_le_exp.mpr hk) (norm_nonneg _))⟩

theorem TracksP.one (Y : F) : TracksP D 1 Y Y 0 := fun u hu => by simp [hu]

theorem TracksP.mono {N : Equiv.Perm (S)} {Y Y' : F} {e e' : ℝ} (h : TracksP D N Y Y' e) (he : e ≤ e') : TracksP D N Y Y' e' := fun u hu => (h u hu).trans he

theorem TracksP.from {N : Equiv.Perm (S)} {Y Y' : F} {e κ : ℝ} (h : TracksP D N Y Y' e) (hl : LipP D κ N) (u : S) : ‖D.pr (N u) - Y'‖ ≤ Real.exp κ * ‖D.pr u - Y‖ + e := by
  have h1 := hl.fwd u (D.sc Y)
  have h2 := h (D.sc Y) (D.eq Y)
  have h3 := norm_add_le_of_le h1 h2
  rwa [sub_add_sub_cancel, D.eq] at h3

theorem TracksP.mul {N N' : Equiv.Perm (S)} {Y Y' Y'' : F} {e e' κ : ℝ} (h' : TracksP D N' Y' Y'' e') (hl : LipP D κ N') (h : TracksP D N Y Y' e) :
    TracksP D (N' * N) Y Y'' (Real.exp κ * e + e') := by
  intro u hu
  rw [Equiv.Perm.mul_apply]
  refine (h'.from hl _).trans ?_
  have := mul_le_mul_of_nonneg_left (h u hu) (Real.exp_pos κ).le
  linarith

theorem TracksP.inv {N : Equiv.Perm (S)} {Y Y' : F} {e κ : ℝ} (h : TracksP D N Y Y' e) (hl : LipP D κ N) : TracksP D N⁻¹ Y' Y (Real.exp κ * e) := by
  intro u hu
  have h1 := hl.bwd u (N (D.sc Y))
  rw [show N⁻¹ (N (D.sc Y)) = (D.sc Y) from N.symm_apply_apply _, hu, D.eq] at h1
  refine h1.trans (mul_le_mul_of_nonneg_left ?_ (Real.exp_pos _).le)
  rw [norm_sub_rev]
  exact h (D.sc Y) (D.eq Y)

/-! ### Products along a list -/

variable {X : Type}

/-- what a sector contributes -/
structure StepOkP (D : Sect S F) (Y : ℝ → F) (π : ℝ) (s : Sec ℝ) (N : ℝ → Equiv.Perm (S)) (κ f x : ℝ) : Prop where
  κ0 : 0 ≤ κ
  f0 : 0 ≤ f
  lip : LipP D κ (N x)
  left : x ≤ s.min → N x = 1
  mid : s.min < x → x < s.max → TracksP D (N x) (Y s.min) (Y x) (f + π)
  right : s.max ≤ x → TracksP D (N x) (Y s.min) (Y s.max) f

theorem chainP {Y : ℝ → F} {π x : ℝ} (hπ : 0 ≤ π) {G : X → ℝ → Equiv.Perm (S)} {sec : X → Sec ℝ} {κ f : X → ℝ} :
    ∀ {l : List X} {a b : ℝ}, Chn a (l.map sec) b → (∀ s ∈ l, StepOkP D Y π (sec s) (G s) (κ s) (f s) x) → (∀ s ∈ l, (sec s).min < (sec s).max) →
      LipP D (l.map κ).sum (Pi (byIdx G l) x l.length) ∧ (x ≤ a → Pi (byIdx G l) x l.length = 1) ∧
      (a ≤ x → x ≤ b → TracksP D (Pi (byIdx G l) x l.length) (Y a) (Y x) (Real.exp (l.map κ).sum * ((l.map f).sum + π)))
  | [], a, b, hc, _, _ => by
    refine ⟨by simpa [Pi] using LipP.one, fun _ => rfl, fun h1 h2 => ?_⟩
    simp only [List.map_nil, Chn] at hc
    have : x = a := by linarith
    rw [this]
    exact (TracksP.one (Y a)).mono (by simpa using hπ)
  | s :: l, a, b, hc, hk, hp => by
    obtain ⟨ih1, ih2, ih3⟩ := chainP hπ hc.2 (fun t ht => hk t (List.mem_cons_of_mem _ ht)) (fun t ht => hp t (List.mem_cons_of_mem _ ht))
    have ks := hk s (by simp)
    have hs := hp s (by simp)
    have ha : (sec s).min = a := hc.1
    have sum0 : 0 ≤ (l.map f).sum := List.sum_nonneg (by
      intro z hz
      obtain ⟨t, ht, rfl⟩ := List.mem_map.mp hz
      exact (hk t (List.mem_cons_of_mem _ ht)).f0)
    have sumk : 0 ≤ (l.map κ).sum := List.sum_nonneg (by
      intro z hz
      obtain ⟨t, ht, rfl⟩ := List.mem_map.mp hz
      exact (hk t (List.mem_cons_of_mem _ ht)).κ0)
    have e1 : Pi (byIdx G (s :: l)) x (s :: l).length = Pi (byIdx G l) x l.length * G s x := pi_cons G s l x l.length
    rw [e1, List.map_cons, List.map_cons, List.sum_cons, List.sum_cons]
    have hone : 1 ≤ Real.exp (κ s + (l.map κ).sum) := Real.one_le_exp (add_nonneg ks.κ0 sumk)
    have htot : 0 ≤ f s + (l.map f).sum + π := by linarith [ks.f0]
    refine ⟨by rw [add_comm]; exact ih1.mul ks.lip, fun hx => ?_, fun h1 h2 => ?_⟩
    · rw [ih2 (by linarith), ks.left (by linarith), one_mul]
    · rcases lt_or_ge x (sec s).max with hx | hx
      · rw [ih2 hx.le, one_mul]
        rcases eq_or_lt_of_le h1 with hxa | hxa
        · rw [ks.left (by linarith), ← hxa]
          exact (TracksP.one _).mono (by positivity)
        · rw [← ha] at hxa ⊢
          refine (ks.mid hxa hx).mono ?_
          calc f s + π ≤ 1 * (f s + (l.map f).sum + π) := by linarith
            _ ≤ _ := mul_le_mul_of_nonneg_right hone htot
      · have k3 := ih3 hx h2
        have := k3.mul ih1 (ks.right hx)
        rw [ha] at this
        refine this.mono ?_
        rw [Real.exp_add]
        have p1 : 1 ≤ Real.exp (κ s) := Real.one_le_exp ks.κ0
        have p2 := (Real.exp_pos (l.map κ).sum).le
        have p3 : Real.exp (l.map κ).sum * (f s + (l.map f).sum + π) ≤ Real.exp (κ s) * Real.exp (l.map κ).sum * (f s + (l.map f).sum + π) :=
          mul_le_mul_of_nonneg_right (le_mul_of_one_le_left p2 p1) htot
        linarith

/-- From one point of the mesh to another. -/
theorem chainP_two {Y : ℝ → F} {K F π a b x x' : ℝ} (hπ : 0 ≤ π) {G : X → ℝ → Equiv.Perm (S)} {sec : X → Sec ℝ} {κ f : X → ℝ} {l : List X}
    (hc : Chn a (l.map sec) b) (hp : ∀ s ∈ l, (sec s).min < (sec s).max) (hk : ∀ s ∈ l, StepOkP D Y π (sec s) (G s) (κ s) (f s) x)
    (hk' : ∀ s ∈ l, StepOkP D Y π (sec s) (G s) (κ s) (f s) x') (hK : (l.map κ).sum ≤ K) (hF : (l.map f).sum ≤ F) (hx : x ∈ Set.Icc a b) (hx' : x' ∈ Set.Icc a b) :
    TracksP D (Pi (byIdx G l) x' l.length * (Pi (byIdx G l) x l.length)⁻¹) (Y x) (Y x') (Real.exp (3 * K) * (2 * (F + π))) := by
  obtain ⟨l1, -, t1⟩ := chainP hπ hc hk hp
  obtain ⟨l2, -, t2⟩ := chainP hπ hc hk' hp
  have l1' := l1.mono hK
  have l2' := l2.mono hK
  have sumk : 0 ≤ (l.map κ).sum := List.sum_nonneg (by
    intro z hz
    obtain ⟨t, ht, rfl⟩ := List.mem_map.mp hz
    exact (hk t ht).κ0)
  have sum0 : 0 ≤ (l.map f).sum := List.sum_nonneg (by
    intro z hz
    obtain ⟨t, ht, rfl⟩ := List.mem_map.mp hz
    exact (hk t ht).f0)
  have hb : Real.exp (l.map κ).sum * ((l.map f).sum + π) ≤ Real.exp K * (F + π) :=
    mul_le_mul (Real.exp_le_exp.mpr hK) (by linarith) (by linarith) (Real.exp_pos _).le
  have := ((t2 hx'.1 hx'.2).mono hb).mul l2' (((t1 hx.1 hx.2).mono hb).inv l1')
  refine this.mono ?_
  have K0 : 0 ≤ K := sumk.trans hK
  have F0 : 0 ≤ F + π := by linarith
  have e3 : Real.exp (3 * K) = Real.exp K * (Real.exp K * Real.exp K) := by rw [← Real.exp_add, ← Real.exp_add]; congr 1; ring
  have p1 : 1 ≤ Real.exp K := Real.one_le_exp K0
  have p2 : Real.exp K ≤ Real.exp (3 * K) := Real.exp_le_exp.mpr (by linarith)
  have p3 := mul_le_mul_of_nonneg_right p2 F0
  rw [← mul_assoc, ← mul_assoc] at *
  have e4 : Real.exp K * Real.exp K * (Real.exp K * (F + π)) = Real.exp (3 * K) * (F + π) := by rw [e3]; ring
  nlinarith only [e4, p3]

end
end Verif.NP
