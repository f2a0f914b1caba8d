import Verif.Props.Periodic

/-!
# Periodic and antiperiodic problems: C81

The search for the eigenvalues of `y(max) = K y(min)` pairs the indices as `0 | 1 2 | 3 4 | …` (periodic
type) or `0 1 | 2 3 | …` (antiperiodic type). Which of both is used depends on the first row of `K` only.
-/
namespace Verif.Periodic
open Verif.YT Verif.Propag Verif.Mesh

section
variable {K : Type} [Field K] [LinearOrder K] [IsStrictOrderedRing K]

/-- **C81**: the identity (periodic boundary conditions) is of periodic type, minus the identity
(antiperiodic ones) is of antiperiodic type. -/
theorem C81_periodic_and_antiperiodic :
    isAnti (⟨1, 0, 0, 1⟩ : M2 K) = false ∧ isAnti (⟨-1, 0, 0, -1⟩ : M2 K) = true := by
  simp [isAnti]

/-- **C81**: of `K` and `-K` exactly one is treated as antiperiodic, for every invertible `K`. -/
theorem C81_negated_swaps (k : M2 K) (hdet : k.a * k.d - k.b * k.c ≠ 0) :
    isAnti (⟨-k.a, -k.b, -k.c, -k.d⟩ : M2 K) = !isAnti k := by
  have h0 : k.a ≠ 0 ∨ k.b ≠ 0 := by
    by_contra h
    push Not at h
    exact hdet (by rw [h.1, h.2]; ring)
  simp only [isAnti, ccmp_lt, ccmp_eq, Left.neg_pos_iff, neg_eq_zero, Left.neg_neg_iff]
  rcases lt_trichotomy k.b 0 with h | h | h
  · simp [h, h.ne, h.not_gt]
  · rcases lt_trichotomy k.a 0 with h' | h' | h'
    · simp [h, h', h'.not_gt]
    · simp [h, h'] at h0
    · simp [h, h', h'.not_gt]
  · simp [h, h.ne', h.not_gt]

/-- **C81**: a matrix with `k₁₁ > 0, k₁₂ ≤ 0` — the normal form of coupled boundary conditions whose
lowest eigenvalue stands alone — is of periodic type. -/
theorem C81_normal_form (k : M2 K) (ha : 0 < k.a) (hb : k.b ≤ 0) : isAnti k = false := by
  simp [isAnti, ha.not_gt, hb.not_gt]

end

section pairs
variable {K : Type} [Add K] [Sub K] [Mul K] [Div K] [Neg K] [Zero K] [One K] [CCmp K]

/-- Every double entry has an index of the parity of `p`. -/
def DoubleParity (p : Int) (L : List (Int × K × Int)) : Prop :=
  ∀ e ∈ L, e.2.2 = 2 → (e.1 - p) % 2 = 0

theorem DoubleParity.add {p : Int} {L : List (Int × K × Int)} (h : DoubleParity p L) (r : Range K) (i : Int) (E : K)
    (b : Bool) (hb : b = true → (i - p) % 2 = 0) : DoubleParity p (add r multiplicity L i E b) := by
  unfold Periodic.add
  split
  · exact h
  · intro e he h2
    rcases List.mem_append.mp he with he | he
    · exact h e he h2
    · rw [List.mem_singleton] at he
      subst he
      apply hb
      cases b with
      | true => rfl
      | false => simp [multiplicity] at h2

theorem mainLoop_parity (o : Oracle K) (r : Range K) (eps highest : K) (n : Nat) (p : Int) :
    ∀ (fuel : Nat) (i : Int) (low : K) (L L' : List (Int × K × Int)), DoubleParity p L → (i - 1 - p) % 2 = 0 →
    mainLoop o r multiplicity eps highest n fuel i low L = .ok L' → DoubleParity p L' := by
  intro fuel
  induction fuel with
  | zero =>
    intro i low L L' hL hi h
    unfold mainLoop at h
    split at h
    · simp at h
    · rw [← Outcome.ok.inj h]; exact hL
  | succ fuel ih =>
    intro i low L L' hL hi h
    unfold mainLoop at h
    split at h
    · dsimp only at h
      obtain ⟨_, _, h⟩ := Outcome.bind_eq_ok.mp h
      obtain ⟨_, _, h⟩ := Outcome.bind_eq_ok.mp h
      obtain ⟨_, _, h⟩ := Outcome.bind_eq_ok.mp h
      obtain ⟨q, _, h⟩ := Outcome.bind_eq_ok.mp h
      refine ih _ _ _ _ ?_ ?_ h
      · split
        · exact hL.add r _ _ _ (fun _ => hi)
        · exact (hL.add r _ _ _ (by simp)).add r _ _ _ (by simp)
      · omega
    · rw [← Outcome.ok.inj h]; exact hL

theorem startIndex_parity (anti : Bool) (iMin : Int) :
    (startIndex anti iMin - (if anti then 1 else 0)) % 2 = 0 := by
  unfold startIndex
  have := Int.mul_tdiv_add_tmod iMin 2
  omega

/-- **C81** (any arithmetic): a double eigenvalue of a periodic-type problem has an odd index `2k+1`
(it stands for the pair `2k+1, 2k+2`), one of an antiperiodic-type problem an even index. -/
theorem C81_double_index (o : Oracle K) (iMin iMax : Int) (n : Nat) (L : List (Int × K × Int))
    (h : byIndex o multiplicity iMin iMax n = .ok L) (i : Int) (E : K) (he : (i, E, (2 : Int)) ∈ L) :
    i % 2 = if o.anti then 0 else 1 := by
  unfold byIndex at h
  obtain ⟨eMin, _, h⟩ := Outcome.bind_eq_ok.mp h
  obtain ⟨eMax, _, h⟩ := Outcome.bind_eq_ok.mp h
  have key : DoubleParity (if o.anti then 0 else 1) L := by
    unfold helper at h
    obtain ⟨highest, _, h⟩ := Outcome.bind_eq_ok.mp h
    have hp := startIndex_parity o.anti iMin
    dsimp only at h
    split at h
    · rename_i h0
      obtain ⟨st, hst, h⟩ := Outcome.bind_eq_ok.mp h
      refine mainLoop_parity o _ _ _ _ _ _ _ _ _ _ ?_ ?_ h
      · unfold lowest at hst
        obtain ⟨_, _, hst⟩ := Outcome.bind_eq_ok.mp hst
        obtain ⟨_, _, hst⟩ := Outcome.bind_eq_ok.mp hst
        obtain ⟨_, _, hst⟩ := Outcome.bind_eq_ok.mp hst
        rw [← Outcome.ok.inj hst]
        exact DoubleParity.add (fun e he => by simp at he) _ _ _ _ (by simp)
      · (rcases ha : o.anti with _ | _) <;> simp only [ha, if_true, if_false, Bool.false_eq_true] at hp ⊢ <;> omega
    · refine mainLoop_parity o _ _ _ _ _ _ _ _ _ _ (fun e he => by simp at he) ?_ h
      (rcases ha : o.anti with _ | _) <;> simp only [ha, if_true, if_false, Bool.false_eq_true] at hp ⊢ <;> omega
  have := key _ he rfl
  cases ha : o.anti <;> simp [ha] at this ⊢ <;> omega

end pairs

/-- A run with a double eigenvalue (index 1, periodic type), and an antiperiodic-type run (index 2). -/
example : helper exOracle ⟨-4, 8, 0, 3⟩ multiplicity (1/8) 40 =
    .ok [(0, 3427/8192, 1), (1, 197041/131072, 2)] ∧ exOracle.anti = false := by decide +kernel
example : isAnti (⟨2, -3, 1, -1⟩ : M2 ℚ) = false ∧ isAnti (⟨-2, 3, -1, 1⟩ : M2 ℚ) = true := by decide +kernel

end Verif.Periodic
