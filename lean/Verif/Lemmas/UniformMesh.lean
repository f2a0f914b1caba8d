import Verif.Props.Convergence
import Verif.Props.MeshUniform

/-!
# The uniform builder's mesh and smooth potentials
-/
namespace Verif.Solver
open Verif.Mesh Verif.YT Verif.CalcT Verif.Propag Verif.Formulas Verif.Legendre Verif.Spec

theorem SmoothOn.shrink {M : ℝ} {W : ℝ → ℝ} {a b c d : ℝ} (h : SmoothOn M W a b) (ha : a ≤ c) (hb : d ≤ b) : SmoothOn M W c d := by
  obtain ⟨D, h0, h1, h2⟩ := h
  have hs : Set.Icc c d ⊆ Set.Icc a b := Set.Icc_subset_Icc ha hb
  exact ⟨D, fun x hx => h0 x (hs hx), fun j hj x hx => (h1 j hj x (hs hx)).mono hs, fun j hj x hx => h2 j hj x (hs hx)⟩

theorem SolvesOn.shrink {V : ℝ → ℝ} {E a b c d : ℝ} {y dy : ℝ → ℝ} (h : SolvesOn V E a b y dy) (ha : a ≤ c) (hb : d ≤ b) :
    SolvesOn V E c d y dy := by
  have hs : Set.Icc c d ⊆ Set.Icc a b := Set.Icc_subset_Icc ha hb
  exact ⟨fun x hx => (h.d1 x (hs hx)).mono hs, fun x hx => (h.d2 x (hs hx)).mono hs⟩

theorem deriv_join {f f' : ℝ → ℝ} {a c b : ℝ} (h1 : ∀ x ∈ Set.Icc a c, HasDerivWithinAt f (f' x) (Set.Icc a c) x)
    (h2 : ∀ x ∈ Set.Icc c b, HasDerivWithinAt f (f' x) (Set.Icc c b) x) (ha : a ≤ c) (hb : c ≤ b) :
    ∀ x ∈ Set.Icc a b, HasDerivWithinAt f (f' x) (Set.Icc a b) x := by
  have out : ∀ {s : Set ℝ} {x : ℝ}, IsClosed s → x ∉ s → HasDerivWithinAt f (f' x) s x := by
    intro s x hs hx
    exact hasDerivWithinAt_iff_hasFDerivWithinAt.mpr (HasFDerivWithinAt.of_notMem_closure (by rwa [hs.closure_eq]))
  intro x hx
  rw [← Set.Icc_union_Icc_eq_Icc ha hb]
  refine HasDerivWithinAt.union ?_ ?_
  · by_cases h : x ∈ Set.Icc a c
    · exact h1 x h
    · exact out isClosed_Icc h
  · by_cases h : x ∈ Set.Icc c b
    · exact h2 x h
    · exact out isClosed_Icc h

theorem SolvesOn.join {V : ℝ → ℝ} {E a c b : ℝ} {y dy : ℝ → ℝ} (h1 : SolvesOn V E a c y dy) (h2 : SolvesOn V E c b y dy)
    (ha : a ≤ c) (hb : c ≤ b) : SolvesOn V E a b y dy :=
  ⟨deriv_join h1.d1 h2.d1 ha hb, deriv_join h1.d2 h2.d2 ha hb⟩

/-- On a mesh with one potential, solving on every sector is solving on the whole interval. -/
theorem solvesMesh_iff {V : ℝ → ℝ} {E : ℝ} {y dy : ℝ → ℝ} : ∀ {l : List (Sec ℝ)} {a b : ℝ}, Chn a l b → (∀ s ∈ l, s.min < s.max) → l ≠ [] →
    (SolvesMesh (fun _ => V) E l y dy ↔ SolvesOn V E a b y dy)
  | [], _, _, _, _, h => absurd rfl h
  | [s], a, b, h, hp, _ => by
    obtain ⟨h1, h2⟩ := h
    have h2 : s.max = b := h2
    subst h1 h2
    simp [SolvesMesh]
  | s :: t :: l, a, b, h, hp, _ => by
    have hp' : ∀ u ∈ t :: l, u.min < u.max := fun u hu => hp u (List.mem_cons_of_mem _ hu)
    have ih := solvesMesh_iff (V := V) (E := E) (y := y) (dy := dy) h.2 hp' (by simp)
    have hs := hp s (by simp)
    have e := h.1
    have hr := (chn_range h.2 hp').1
    subst e
    constructor
    · intro hm
      exact SolvesOn.join (hm s (by simp)) (ih.mp (fun u hu => hm u (List.mem_cons_of_mem _ hu))) hs.le hr
    · intro hm u hu
      rcases List.mem_cons.mp hu with rfl | hu
      · exact SolvesOn.shrink hm le_rfl hr
      · exact ih.mpr (SolvesOn.shrink hm hs.le le_rfl) u hu

/-- The mesh of the uniform builder is fit for every smooth potential. -/
theorem uniform_fit {M : ℝ} {V : ℝ → ℝ} {a b : ℝ} (cmp : Sec ℝ → Sec ℝ → Bool) {n : ℕ} {eps : ℝ} (hn : 1 ≤ n) (h0 : 0 ≤ eps) (hV : SmoothOn M V a b)
    (h1 : (b - a) / n ≤ 1) (hw : eps < (b - a) / n) :
    ∃ r, uniformBuild cmp n a b = .ok r ∧ r.sectors.length = n ∧ r.matchIndex < r.sectors.length ∧
      FitMesh eps M ((b - a) / n) (fun _ => V) a b r.sectors ∧ Chn a r.sectors b ∧ (∀ s ∈ r.sectors, s.min < s.max) ∧ r.sectors ≠ [] := by
  have hn0 : (0 : ℝ) < n := by exact_mod_cast hn
  have hab : a < b := by
    have : (0 : ℝ) < (b - a) / n := lt_of_le_of_lt h0 hw
    have := (div_pos_iff_of_pos_right hn0).mp this
    linarith
  obtain ⟨r, e1, e2, e3, e4, e5⟩ := C01_uniform_mesh cmp n (by exact_mod_cast hn) a b hab
  obtain ⟨r', f1, f2, f3, f4⟩ := C02_uniform_split cmp n (by exact_mod_cast hn) a b
  rw [e1] at f1
  injection f1 with f1
  subst f1
  have hlen : r.sectors.length = n := by simpa using e2
  have hpos : ∀ s ∈ r.sectors, s.min < s.max := by
    intro s hs
    exact e4 (s.min, s.max) (List.mem_map.mpr ⟨s, hs, rfl⟩)
  have ht : IsTiling SamePoint (bounds r.sectors) a b := ⟨e3.nonempty, e3.first, e3.last, fun i hi => .inl (e3.joined i hi)⟩
  have hch := chn_of_tiling _ ht
  have hr := (chn_range hch hpos).2
  have hne : r.sectors ≠ [] := by
    intro h; rw [h] at hlen; simp at hlen; omega
  refine ⟨r, e1, hlen, by simpa [fwdFlags] using f2.inRange, ⟨⟨ht, ?_⟩, ?_, h0, ?_, ?_, h1, ?_⟩, hch, hpos, hne⟩
  · intro s hs; simpa using (hpos s hs).le
  · intro s hs; rcases f3 s hs with h | h <;> rw [h] <;> simp
  · intro s hs; rw [e5 s hs]; simpa using hw
  · intro s hs; rw [e5 s hs]; simp
  · intro s hs; exact SmoothOn.shrink hV (hr s hs).1 (hr s hs).2

end Verif.Solver
