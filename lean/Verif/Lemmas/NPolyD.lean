import Verif.Lemmas.NPoly
import Verif.Lemmas.Legendre

/-!
# Derivative of and multiplication with the potential for sums of matrix words
-/
namespace Verif.NP
open Verif.MFormulas Verif.Legendre
open scoped BigOperators

section
variable {A : Type} [NormedRing A] [NormedAlgebra ℝ A]

theorem word_append (v : ℕ → A) (l m : List ℕ) : word v (l ++ m) = word v l * word v m := by
  induction l with
  | nil => simp [word]
  | cons i l ih => simp [word, ih, mul_assoc]

theorem word_one (v : ℕ → A) (k : ℕ) : word v [k] = v k := by simp [word]

/-- What the functions `e_i(δ) = η_i((V₀ - E) δ²)` satisfy; the letter 9 is `V₀ - E`. -/
structure EtaFam (v : ℕ → A) (e : ℕ → ℝ → A) : Prop where
  der : ∀ i δ, HasDerivAt (e i) (δ • (v 9 * e (i + 1) δ)) δ
  recur : ∀ (i : ℕ) δ, e i δ = (2 * i + 1 : ℝ) • e (i + 1) δ + δ ^ 2 • (v 9 * e (i + 2) δ)

/-- `e_i` at `δ` -/
def atd (e : ℕ → ℝ → A) (δ : ℝ) : ℕ → A := fun i => e i δ

theorem hasDerivAt_mon {v : ℕ → A} {e : ℕ → ℝ → A} (he : EtaFam v e) (h δ : ℝ) (m : RM) (hm : okD m = true) :
    HasDerivAt (fun δ => (m.c : ℝ) • m.mon v (atd e δ) h δ) (ev v (atd e δ) h δ (dmono m)) δ := by
  obtain ⟨key, i, j, p, w, c⟩ := m
  simp only [RM.mon, atd]
  have h1 : HasDerivAt (fun δ : ℝ => δ ^ j * h ^ p) ((j : ℝ) * δ ^ (j - 1) * h ^ p) δ := (hasDerivAt_pow j δ).mul_const _
  have h2 : HasDerivAt (fun δ => word v w * e i δ) (word v w * (δ • (v 9 * e (i + 1) δ))) δ := (he.der i δ).const_mul _
  refine ((h1.smul h2).const_smul (c : ℝ)).congr_deriv ?_
  unfold dmono
  rw [ev_append]
  have e1 : ev v (atd e δ) h δ (if j = 0 then [] else [mk i (j - 1) p w (c * j)]) = (c : ℝ) • (((j : ℝ) * δ ^ (j - 1) * h ^ p) • (word v w * e i δ)) := by
    split
    · rename_i hj; simp [hj, ev]
    · rw [ev_mk, smul_smul]; push_cast; simp only [atd]; congr 1; ring
  rw [smul_add, add_comm]
  dsimp only
  rw [e1]
  congr 1
  by_cases hi : i = 0
  · subst hi
    rw [if_pos rfl, ev_mk, word_append, word_one]
    simp only [atd, mul_smul_comm, smul_smul, mul_assoc, zero_add]
    congr 1; ring
  · rw [if_neg hi]
    have hj : j ≠ 0 := by
      simp only [okD, Bool.or_eq_true, beq_iff_eq] at hm
      rcases hm with hm | hm
      · exact absurd hm hi
      · have := Nat.blt_eq.mp hm; omega
    obtain ⟨j', rfl⟩ := Nat.exists_eq_succ_of_ne_zero hj
    obtain ⟨i', rfl⟩ := Nat.exists_eq_succ_of_ne_zero hi
    have hr := he.recur i' δ
    rw [show [mk (i'.succ - 1) (j'.succ - 1) p w c, mk i'.succ (j'.succ - 1) p w (-(2 * (i'.succ : Int) - 1) * c)] =
      [mk i' j' p w c] ++ [mk (i' + 1) j' p w (-(2 * ((i' + 1 : ℕ) : Int) - 1) * c)] from rfl, ev_append, ev_mk, ev_mk]
    simp only [atd, Nat.succ_eq_add_one]
    rw [hr]
    push_cast
    simp only [mul_smul_comm, smul_smul, mul_add, smul_add]
    module

/-- `Σ_{k=1}^{8} v_k h^k P_k(δ/h)` -/
noncomputable def dVm (v : ℕ → A) (h δ : ℝ) : A := ∑ k ∈ Finset.range 8, (h ^ (k + 1) * shiftedP (k + 1) (δ / h)) • v (k + 1)

theorem ev_map_range (v e : ℕ → A) (h δ : ℝ) (f : ℕ → RM) (n : ℕ) :
    ev v e h δ ((List.range n).map f) = ∑ j ∈ Finset.range n, ev v e h δ [f j] := by
  induction n with
  | zero => simp [ev]
  | succ n ih => rw [List.range_succ, List.map_append, ev_append, ih, Finset.sum_range_succ]; simp

theorem ev_flatMap_range (v e : ℕ → A) (h δ : ℝ) (f : ℕ → NP) (n : ℕ) :
    ev v e h δ ((List.range n).flatMap f) = ∑ j ∈ Finset.range n, ev v e h δ (f j) := by
  induction n with
  | zero => simp [ev]
  | succ n ih => rw [List.range_succ, List.flatMap_append, ev_append, ih, Finset.sum_range_succ]; simp

theorem ev_potk (v e : ℕ → A) {h : ℝ} (hh : h ≠ 0) (δ : ℝ) {k : ℕ} (hk : k < 16) (m : RM) :
    ev v e h δ (potk k m) = (h ^ k * shiftedP k (δ / h)) • (v k * ((m.c : ℝ) • m.mon v e h δ)) := by
  unfold potk
  rw [ev_map_range]
  have h1 : ∀ j ∈ Finset.range (k + 1), ev v e h δ [mk m.i (m.j + j) (m.p + (k - j)) (k :: m.w) (poly k j * m.c)] =
      (h ^ k * ((-1) ^ (k + j) * (k.choose j : ℝ) * ((k + j).choose j : ℝ) * (δ / h) ^ j)) • (v k * ((m.c : ℝ) • m.mon v e h δ)) := by
    intro j hj
    rw [Finset.mem_range] at hj
    rw [ev_mk, poly_eq hk (by omega)]
    unfold closed RM.mon
    simp only [word, mul_smul_comm, smul_smul, mul_assoc]
    push_cast
    congr 1
    have e1 : h ^ k = h ^ (k - j) * h ^ j := by rw [← pow_add]; congr 1; omega
    rw [div_pow, e1, pow_add δ, pow_add h m.p]
    field_simp
  rw [Finset.sum_congr rfl h1, ← Finset.sum_smul, ← Finset.mul_sum]
  rfl

theorem commute_word {v : ℕ → A} {x : A} (hv : ∀ k, Commute x (v k)) (w : List ℕ) : Commute x (word v w) := by
  induction w with
  | nil => exact Commute.one_right x
  | cons k w ih => rw [word]; exact (hv k).mul_right ih

theorem ev_pot {v : ℕ → A} {e : ℕ → ℝ → A} (he : EtaFam v e) {h : ℝ} (hh : h ≠ 0) (δ : ℝ) (hv : ∀ k, Commute (v 9 - v 0) (v k)) (m : RM) (hm : okP m = true) :
    ev v (atd e δ) h δ (pot m) = (v 9 + dVm v h δ) * ((m.c : ℝ) • m.mon v (atd e δ) h δ) := by
  unfold pot
  rw [ev_append, ev_flatMap_range, add_mul, dVm, Finset.sum_mul]
  congr 1
  swap
  · refine Finset.sum_congr rfl (fun k hk => ?_)
    rw [Finset.mem_range] at hk
    rw [ev_potk v _ hh δ (by omega), smul_mul_assoc]
  · obtain ⟨key, i, j, p, w, c⟩ := m
    unfold pot0
    rw [ev_append, show [mk i j p (0 :: w) c, mk i j p (w ++ [0]) (-c)] = [mk i j p (0 :: w) c] ++ [mk i j p (w ++ [0]) (-c)] from rfl, ev_append, ev_mk, ev_mk,
      word_append, word_one]
    simp only [RM.mon, word, atd]
    have key : ev v (atd e δ) h δ (if i < 2 then [mk i j p (w ++ [9]) c] else [mk (i - 2) (j - 2) p w c, mk (i - 1) (j - 2) p w (-(2 * (i : Int) - 3) * c)]) =
        ((c : ℝ) * (δ ^ j * h ^ p)) • (word v w * (v 9 * e i δ)) := by
      by_cases hi : i < 2
      · rw [if_pos hi, ev_mk, word_append, word_one]
        simp only [atd, mul_assoc]
      · rw [if_neg hi]
        have hj : 1 < j := by
          simp only [okP, Bool.or_eq_true] at hm
          rcases hm with hm | hm
          · exact absurd (Nat.blt_eq.mp hm) hi
          · exact Nat.blt_eq.mp hm
        obtain ⟨j', rfl⟩ : ∃ j', j = j' + 2 := ⟨j - 2, by omega⟩
        obtain ⟨i', rfl⟩ : ∃ i', i = i' + 2 := ⟨i - 2, by omega⟩
        have hr := he.recur i' δ
        rw [show [mk (i' + 2 - 2) (j' + 2 - 2) p w c, mk (i' + 2 - 1) (j' + 2 - 2) p w (-(2 * ((i' + 2 : ℕ) : Int) - 3) * c)] =
          [mk i' j' p w c] ++ [mk (i' + 1) j' p w (-(2 * ((i' + 2 : ℕ) : Int) - 3) * c)] from rfl, ev_append, ev_mk, ev_mk]
        simp only [atd]
        rw [hr]
        push_cast
        simp only [mul_smul_comm, smul_smul, mul_add, smul_add]
        module
    rw [key]
    have hcw : v 9 * (word v w * e i δ) = v 0 * (word v w * e i δ) - word v w * (v 0 * e i δ) + word v w * (v 9 * e i δ) := by
      have := congrArg (fun x => x * e i δ) (commute_word hv w).eq
      simp only [sub_mul, mul_sub, mul_assoc] at this
      rw [← sub_eq_zero] at this ⊢
      rw [← this]; abel
    rw [mul_smul_comm, mul_smul_comm, hcw]
    push_cast
    simp only [mul_smul_comm, smul_smul, mul_add, smul_add, sub_mul, mul_sub, smul_mul_assoc, one_mul, mul_one, mul_assoc, smul_sub]
    module

theorem hasDerivAt_ev {v : ℕ → A} {e : ℕ → ℝ → A} (he : EtaFam v e) (h δ : ℝ) (l : NP) (hl : ∀ m ∈ l, okD m = true) :
    HasDerivAt (fun δ => ev v (atd e δ) h δ l) (ev v (atd e δ) h δ (l.flatMap dmono)) δ := by
  induction l with
  | nil => exact (hasDerivAt_const δ (0 : A))
  | cons m l ih =>
    rw [List.flatMap_cons, ev_append]
    exact (hasDerivAt_mon he h δ m (hl m (by simp))).add (ih (fun m hm => hl m (by simp [hm])))

theorem ev_pots {v : ℕ → A} {e : ℕ → ℝ → A} (he : EtaFam v e) {h : ℝ} (hh : h ≠ 0) (δ : ℝ) (hv : ∀ k, Commute (v 9 - v 0) (v k)) (l : NP) (hl : ∀ m ∈ l, okP m = true) :
    ev v (atd e δ) h δ (l.flatMap pot) = (v 9 + dVm v h δ) * ev v (atd e δ) h δ l := by
  induction l with
  | nil => simp [ev]
  | cons m l ih =>
    rw [List.flatMap_cons, ev_append, ev_pot he hh δ hv m (hl m (by simp)), ih (fun m hm => hl m (by simp [hm]))]
    simp only [ev, mul_add]

/-! ### Bounds -/

theorem norm_word_le {v : ℕ → A} {B : ℝ} (hB : 1 ≤ B) (h1 : ‖(1 : A)‖ ≤ B) (w : List ℕ) (hv : ∀ k ∈ w, ‖v k‖ ≤ B) : ‖word v w‖ ≤ B ^ (w.length + 1) := by
  induction w with
  | nil => simpa [word] using h1
  | cons k w ih =>
    rw [word, List.length_cons, pow_succ, mul_comm (B ^ _)]
    exact (norm_mul_le _ _).trans (mul_le_mul (hv k (by simp)) (ih (fun k hk => hv k (by simp [hk]))) (norm_nonneg _) (by linarith))

/-- bound for the coefficients of a list -/
noncomputable def cB (B : ℝ) (l : NP) : ℝ := (l.map (fun m => |(m.c : ℝ)| * B ^ (m.w.length + 2))).sum

theorem cB_nonneg {B : ℝ} (hB : 0 ≤ B) (l : NP) : 0 ≤ cB B l := by
  unfold cB
  apply List.sum_nonneg
  intro x hx
  obtain ⟨m, _, rfl⟩ := List.mem_map.mp hx
  positivity

theorem norm_ev_le {v e : ℕ → A} {B h δ : ℝ} (hB : 1 ≤ B) (h1 : ‖(1 : A)‖ ≤ B) (h0 : 0 ≤ h) (hh : h ≤ 1) (d0 : 0 ≤ δ) (d1 : δ ≤ h) (N : ℕ) (l : NP)
    (hv : ∀ m ∈ l, ∀ k ∈ m.w, ‖v k‖ ≤ B) (he : ∀ m ∈ l, ‖e m.i‖ ≤ B) (hN : ∀ m ∈ l, N ≤ m.j + m.p) : ‖ev v e h δ l‖ ≤ cB B l * h ^ N := by
  induction l with
  | nil => simp [ev, cB]
  | cons m l ih =>
    have ih' := ih (fun m hm => hv m (by simp [hm])) (fun m hm => he m (by simp [hm])) (fun m hm => hN m (by simp [hm]))
    have e1 : ‖(m.c : ℝ) • m.mon v e h δ‖ ≤ |(m.c : ℝ)| * B ^ (m.w.length + 2) * h ^ N := by
      unfold RM.mon
      rw [norm_smul, norm_smul, Real.norm_eq_abs, Real.norm_eq_abs, abs_of_nonneg (by positivity : 0 ≤ δ ^ m.j * h ^ m.p), mul_assoc |(m.c : ℝ)|]
      refine mul_le_mul_of_nonneg_left ?_ (abs_nonneg (m.c : ℝ))
      have a1 : δ ^ m.j * h ^ m.p ≤ h ^ N := by
        calc δ ^ m.j * h ^ m.p ≤ h ^ m.j * h ^ m.p := mul_le_mul_of_nonneg_right (pow_le_pow_left₀ d0 d1 _) (by positivity)
          _ = h ^ (m.j + m.p) := by rw [pow_add]
          _ ≤ h ^ N := pow_le_pow_of_le_one h0 hh (hN m (by simp))
      have a2 : ‖word v m.w * e m.i‖ ≤ B ^ (m.w.length + 2) := by
        rw [show m.w.length + 2 = (m.w.length + 1) + 1 by omega, pow_succ]
        exact (norm_mul_le _ _).trans (mul_le_mul (norm_word_le hB h1 m.w (hv m (by simp))) (he m (by simp)) (norm_nonneg _) (by positivity))
      rw [mul_comm (B ^ _)]
      exact mul_le_mul a1 a2 (norm_nonneg _) (by positivity)
    have e2 : cB B (m :: l) = |(m.c : ℝ)| * B ^ (m.w.length + 2) + cB B l := by simp [cB]
    rw [ev, e2, add_mul]
    exact (norm_add_le _ _).trans (add_le_add e1 ih')

end
end Verif.NP
