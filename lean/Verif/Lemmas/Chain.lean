import Verif.Lemmas.SectorNear
import Verif.Lemmas.Propagate

/-!
# Error propagation along the visited sectors
-/
namespace Verif.Solver
open Verif.Mesh Verif.YT Verif.CalcT Verif.Propag Verif.Formulas Verif.Legendre Verif.Spec

/-- The visited pieces `[p k, q k]` join up from `x0` to `x1`. -/
def Linked (p q : ℕ → ℝ) : ℝ → List ℕ → ℝ → Prop
  | x0, [], x1 => x0 = x1
  | x0, k :: l, x1 => p k = x0 ∧ Linked p q (q k) l x1

theorem Linked.sum {p q : ℕ → ℝ} : ∀ {l : List ℕ} {x0 x1 : ℝ}, Linked p q x0 l x1 → (l.map fun k => q k - p k).sum = x1 - x0
  | [], _, _, h => by simp only [Linked] at h; simp [h]
  | k :: l, x0, x1, h => by
    have := Linked.sum h.2
    rw [List.map_cons, List.sum_cons, this, h.1]; ring

theorem step_arith {K a e d0 s0 d1 : ℝ} (he : 0 ≤ e) (hd : 0 ≤ d0) (h : d1 ≤ (Real.exp (K * a) + e) * d0 + e * s0)
    (hK : 0 ≤ K * a) : d1 ≤ Real.exp (K * a + e) * d0 + e * s0 := by
  refine h.trans (add_le_add (mul_le_mul_of_nonneg_right ?_ hd) le_rfl)
  rw [Real.exp_add]
  have h1 := Real.add_one_le_exp e
  have h2 : 1 ≤ Real.exp (K * a) := Real.one_le_exp hK
  nlinarith

/-- **The chain of steps**: local errors `e k` accumulate at most exponentially. -/
theorem chain {K : ℝ} (hK : 1 ≤ K) {y dy : ℝ → ℝ} {step : Y ℝ → ℕ → Y ℝ} {p q e : ℕ → ℝ} :
    ∀ {l : List ℕ} {x0 x1 : ℝ} (c : Y ℝ),
      (∀ k ∈ l, 0 ≤ e k ∧ ∃ (W : ℝ → ℝ) (E a b : ℝ) (S : ℝ × ℝ → ℝ × ℝ), (∀ c, pr (step c k) = S (pr c)) ∧ Near W E a b S (p k) (q k) (e k) ∧
        ContinuousOn W (Set.Icc a b) ∧ (∀ x ∈ Set.Icc a b, |W x - E| ≤ K) ∧ p k ∈ Set.Icc a b ∧ q k ∈ Set.Icc a b ∧ SolvesOn W E a b y dy) →
      Linked p q x0 l x1 →
      sz (pr (l.foldl step c) - (y x1, dy x1)) ≤ Real.exp (K * (l.map fun k => |q k - p k|).sum + (l.map e).sum) *
        (sz (pr c - (y x0, dy x0)) + (l.map e).sum * sz (y x0, dy x0)) := by
  intro l
  induction l with
  | nil =>
    intro x0 x1 c _ h
    simp only [Linked] at h
    subst h
    simp
  | cons k l ih =>
    intro x0 x1 c hk hl
    obtain ⟨h1, h2⟩ := hl
    subst h1
    obtain ⟨e0, W, E, a, b, S, hS, hN, hc, hb, mp, mq, hs⟩ := hk k (by simp)
    have st := hN.step e0 hK hc hb mp mq hs (pr c)
    have gr := flow_bound hK hb hs mp mq
    have IH := ih (step c k) (fun m hm => hk m (List.mem_cons_of_mem _ hm)) h2
    rw [List.foldl_cons, List.map_cons, List.map_cons, List.sum_cons, List.sum_cons]
    set X := (l.map fun k => |q k - p k|).sum
    set s := (l.map e).sum with hs'
    have s0 : 0 ≤ s := List.sum_nonneg (by
      intro x hx
      obtain ⟨m, hm, rfl⟩ := List.mem_map.mp hx
      exact (hk m (List.mem_cons_of_mem _ hm)).1)
    have d1 := step_arith e0 (sz_nonneg _) st (by positivity)
    rw [← hS] at d1
    set d0 := sz (pr c - (y (p k), dy (p k))) with hd0
    set n0 := sz (y (p k), dy (p k))
    set g := K * |q k - p k| with hg
    have g0 : 0 ≤ g := by positivity
    have hd0' : 0 ≤ d0 := sz_nonneg _
    have hn0 : 0 ≤ n0 := sz_nonneg _
    have x1 : Real.exp g ≤ Real.exp (g + e k) := Real.exp_le_exp.mpr (by linarith)
    have x2 : 1 ≤ Real.exp (g + e k) := Real.one_le_exp (by linarith)
    have main : sz (pr (step c k) - (y (q k), dy (q k))) + s * sz (y (q k), dy (q k)) ≤ Real.exp (g + e k) * (d0 + (e k + s) * n0) := by
      have a1 : s * sz (y (q k), dy (q k)) ≤ s * (Real.exp (g + e k) * n0) :=
        mul_le_mul_of_nonneg_left (gr.trans (mul_le_mul_of_nonneg_right x1 hn0)) s0
      have a2 : e k * n0 ≤ Real.exp (g + e k) * (e k * n0) := le_mul_of_one_le_left (by positivity) x2
      have a3 : Real.exp (g + e k) * (d0 + (e k + s) * n0) = Real.exp (g + e k) * d0 + Real.exp (g + e k) * (e k * n0) + s * (Real.exp (g + e k) * n0) := by ring
      rw [a3]; linarith only [a1, a2, d1]
    refine IH.trans ((mul_le_mul_of_nonneg_left main (Real.exp_pos _).le).trans (le_of_eq ?_))
    rw [← mul_assoc, ← Real.exp_add]
    congr 2
    rw [hg]; ring

/-- A single extra term in a sum over distinct indices. -/
theorem sum_single_le {l : List ℕ} (hl : l.Nodup) (i : ℕ) {c : ℝ} (hc : 0 ≤ c) : (l.map fun k => if k = i then c else 0).sum ≤ c := by
  induction l with
  | nil => simpa
  | cons k l ih =>
    rw [List.nodup_cons] at hl
    rw [List.map_cons, List.sum_cons]
    by_cases h : k = i
    · subst h
      have : (l.map fun m => if m = k then c else 0) = l.map fun _ => (0 : ℝ) := by
        refine List.map_congr_left (fun m hm => ?_)
        rw [if_neg]; rintro rfl; exact hl.1 hm
      rw [this]; simp
    · rw [if_neg h, zero_add]; exact ih hl.2

theorem visited_nodup (i j : ℕ) : (visited i j).Nodup := by
  unfold visited
  split
  · exact List.nodup_range'
  · exact List.nodup_reverse.mpr List.nodup_range'

end Verif.Solver
