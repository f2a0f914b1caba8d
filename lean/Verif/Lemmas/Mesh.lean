import Verif.Model.Mesh
import Verif.Spec.Mesh
import Mathlib.Tactic.Ring
import Mathlib.Tactic.Linarith
import Mathlib.Tactic.NormNum
import Mathlib.Tactic.FieldSimp

set_option linter.unusedSectionVars false
namespace Verif.Mesh
open Verif.Spec

/-- End points of the sectors of a mesh. -/
def bounds {K : Type u} (l : List (Sec K)) : List (K × K) := l.map fun s => (s.min, s.max)

/-- Which sectors are `forward`. -/
def fwdFlags {K : Type u} (l : List (Sec K)) : List Bool := l.map fun s => decide (s.dir = .forward)

/-- every direction is forward or backward (never `none`) -/
def Directed {K : Type u} (l : List (Sec K)) : Prop := ∀ s ∈ l, s.dir = .forward ∨ s.dir = .backward

variable {K : Type u} [Add K] [Sub K] [Mul K] [Div K] [CCmp K]

section uniform

/-- expected k-th sector while being filled from the left -/
def uF (min h : K) (k : Nat) : Sec K :=
  if k = 0 then ⟨min, min + h, .forward⟩
  else ⟨min + CCmp.lit (k : Nat) * h, min + CCmp.lit ((k + 1 : Nat)) * h, .forward⟩

/-- expected k-th sector while being filled from the right -/
def uB (min max h : K) (c k : Nat) : Sec K :=
  if k + 1 = c then ⟨min + CCmp.lit ((c - 1 : Nat)) * h, max, .backward⟩
  else ⟨min + CCmp.lit (k : Nat) * h, min + CCmp.lit ((k + 1 : Nat)) * h, .backward⟩

theorem uniformLoop_spec (cmp : Sec K → Sec K → Bool) (min max h : K) (c : Nat) :
    ∀ (fuel i j : Nat) (sl : Slots K), i < j → j < c → j - i ≤ fuel + 1 →
      (∀ k, k ≤ i → sl k = some (uF min h k)) →
      (∀ k, j ≤ k → k < c → sl k = some (uB min max h c k)) →
      ∃ m sl', uniformLoop cmp min h fuel i j sl = .ok (m, sl') ∧ m + 1 < c ∧
        ∀ k, k < c → sl' k = some (if k ≤ m then uF min h k else uB min max h c k) := by
  intro fuel
  induction fuel with
  | zero =>
    intro i j sl hij hjc hf hF hB
    have : i + 1 = j := by omega
    refine ⟨i, sl, by unfold uniformLoop; simp [this], by omega, ?_⟩
    intro k hk
    by_cases hki : k ≤ i
    · simp [hki, hF k hki]
    · simp [hki, hB k (by omega) hk]
  | succ fuel ih =>
    intro i j sl hij hjc hf hF hB
    by_cases hd : i + 1 = j
    · refine ⟨i, sl, by unfold uniformLoop; simp [hd], by omega, ?_⟩
      intro k hk
      by_cases hki : k ≤ i
      · simp [hki, hF k hki]
      · simp [hki, hB k (by omega) hk]
    · unfold uniformLoop
      simp only [hd, if_false, Slots.deref, hB j le_rfl hjc, hF i le_rfl, Outcome.bind_ok]
      split
      · apply ih
        · omega
        · exact hjc
        · omega
        · intro k hk
          unfold Slots.set
          by_cases hk1 : k = i + 1
          · subst hk1; simp [uF]
          · simp [hk1, hF k (by omega)]
        · intro k hk1 hk2
          unfold Slots.set
          have : k ≠ i + 1 := by omega
          simp [this, hB k hk1 hk2]
      · apply ih
        · omega
        · omega
        · omega
        · intro k hk
          unfold Slots.set
          have : k ≠ j - 1 := by omega
          simp [this, hF k hk]
        · intro k hk1 hk2
          unfold Slots.set
          by_cases hk3 : k = j - 1
          · subst hk3
            have : j - 1 + 1 ≠ c := by omega
            simp [uB, this]
          · simp [hk3, hB k (by omega) hk2]

theorem collect_spec (sl : Slots K) (g : Nat → Sec K) :
    ∀ n, (∀ k, k < n → sl k = some (g k)) → collect sl n = .ok ((List.range n).map g) := by
  intro n
  induction n with
  | zero => intro _; rfl
  | succ n ih =>
    intro h
    unfold collect
    rw [ih (fun k hk => h k (by omega))]
    simp [Slots.deref, h n (by omega), List.range_succ]

/-- The uniform builder's result in closed form. -/
theorem uniformBuild_closed (cmp : Sec K → Sec K → Bool) (n : Int) (hn : 2 ≤ n) (min max : K) :
    ∃ m, m + 1 < n.toNat ∧ uniformBuild cmp n min max = .ok
      ⟨(List.range n.toNat).map (fun k => if k ≤ m then uF min ((max - min) / CCmp.lit n) k
          else uB min max ((max - min) / CCmp.lit n) n.toNat k), m⟩ := by
  set h : K := (max - min) / CCmp.lit n with hh
  have hc : 2 ≤ n.toNat := by omega
  set c := n.toNat with hcdef
  obtain ⟨m, sl', hloop, hm, hsl⟩ := uniformLoop_spec cmp min max h c c 0 (c - 1)
    (Slots.set (Slots.set (fun _ => none) 0 ⟨min, min + h, .forward⟩) (c - 1)
      ⟨min + CCmp.lit ((c - 1 : Nat)) * h, max, .backward⟩)
    (by omega) (by omega) (by omega)
    (by
      intro k hk
      have hk0 : k = 0 := by omega
      subst hk0
      have : 0 ≠ c - 1 := by omega
      simp [Slots.set, this, uF])
    (by
      intro k hk1 hk2
      have hk0 : k = c - 1 := by omega
      subst hk0
      have : c - 1 + 1 = c := by omega
      simp [Slots.set, uB, this])
  refine ⟨m, hm, ?_⟩
  have h0 : ¬ n < 0 := by omega
  have h1 : n ≠ 0 := by omega
  have h2 : n ≠ 1 := by omega
  unfold uniformBuild
  simp only [h0, h1, h2, if_false, ← hh, ← hcdef]
  rw [hloop]
  simp only [Outcome.bind_ok]
  rw [collect_spec sl' _ c hsl]
  rfl

end uniform
end Verif.Mesh
