import Verif.Lemmas.Box
import Verif.Lemmas.FlEigen
import Verif.Model.Ieee

/-!
# A concrete problem in finite precision (used in the non-vacuity examples only)
-/
namespace Verif.Fp
open Verif.Mesh Verif.YT Verif.CalcT Verif.Propag Verif.Solver Verif.Spec Verif.Legendre

theorem exists_width : ∀ l : List (Sec ℝ), (∀ s ∈ l, 0 < s.max - s.min) → ∃ w, 0 < w ∧ ∀ s ∈ l, w ≤ s.max - s.min := by
  intro l
  induction l with
  | nil => intro _; exact ⟨1, one_pos, by simp⟩
  | cons s l ih =>
    intro h
    obtain ⟨w, w0, hw⟩ := ih (fun s hs => h s (List.mem_cons_of_mem _ hs))
    have := h s List.mem_cons_self
    refine ⟨min w (s.max - s.min), lt_min w0 this, fun t ht => ?_⟩
    rcases List.mem_cons.mp ht with rfl | ht
    · exact min_le_right _ _
    · exact (min_le_left _ _).trans (hw t ht)

/-- For every constant `C` there are an IEEE type and a mesh for `V = 0` on `[0, π/s]` with `C (H^16 + ε) ≤ 1/2`; `3/2 (j+1)²` are the eigenvalues. -/
theorem fl_box {C : ℝ} (hC : 1 ≤ C) : ∃ (p : ℕ) (H u ε : ℝ) (r : BuildResult (Fl (rne p (1 - 2 * p)))), 1 ≤ p ∧ 0 < u ∧ u ≤ 1 / 8 ∧
    FlFit 30 H u u 0 0 (6 * 30 * H) (fun _ _ => 0) 0 ⟨boxB⟩ 0 r.sectors (fun _ Z i => ⟨Eta.eta i Z.val⟩) (fun _ _ => 0) ∧
    0 + r.sectors.length * (u + 0) ≤ ε ∧ ε ≤ 1 / 8 ∧ C * (H ^ 16 + ε) ≤ 1 / 2 ∧ r.matchIndex < r.sectors.length ∧
    ∀ j : ℕ, IsEigenvalue (fun _ _ => 0) (realMesh r.sectors) 0 boxB (0, 1) (0, 1) (3 / 2 * ((j : ℝ) + 1) ^ 2) := by
  obtain ⟨n, hn⟩ := exists_nat_ge (16 * C)
  obtain ⟨r0, -, hm, hf, -, hev, hCH, -⟩ := box_fit hC hn (fun _ _ => true)
  obtain ⟨w, w0, hw⟩ := exists_width r0.sectors hf.wide
  set N : ℝ := (r0.sectors.length : ℝ) with hN
  have N0 : 0 ≤ N := Nat.cast_nonneg _
  have hpos : 0 < min (w / 2) (1 / (8 * C * (N + 1))) := lt_min (by linarith) (by positivity)
  obtain ⟨p, hp⟩ := exists_pow_lt_of_lt_one hpos (by norm_num : (1 / 2 : ℝ) < 1)
  obtain ⟨hp1, hp2⟩ := lt_min_iff.mp hp
  set u : ℝ := (1 / 2) ^ p with hu
  have u0 : 0 < u := by positivity
  have hCN : 8 * C * (N + 1) * u ≤ 1 := by
    have := mul_le_mul_of_nonneg_left hp2.le (show 0 ≤ 8 * C * (N + 1) by positivity)
    rwa [mul_one_div_cancel (by positivity)] at this
  have x1 : 0 ≤ C * N * u := by positivity
  have x2 : 0 ≤ C * u := by positivity
  have x3 : u ≤ C * u := le_mul_of_one_le_left u0.le hC
  have x4 : N * u ≤ C * N * u := by
    have := le_mul_of_one_le_left (mul_nonneg N0 u0.le) hC
    rwa [← mul_assoc] at this
  have x5 : 8 * (C * N * u) + 8 * (C * u) ≤ 1 := le_trans (le_of_eq (by ring)) hCN
  have u8 : u ≤ 1 / 8 := by linarith
  have hp1' : 1 ≤ p := by
    rcases Nat.eq_zero_or_pos p with h | h
    · rw [hu, h, pow_zero] at u8; norm_num at u8
    · exact h
  have hr : Rounding u u (rne p (1 - 2 * p)) := by
    have := rounding_rne p hp1' (1 - 2 * p)
    have e1 : (2 : ℝ) ^ (-(p : ℤ)) = u := by rw [hu, zpow_neg, zpow_natCast, one_div, inv_pow]
    have e2 : (1 - 2 * (p : ℤ)) + p - 1 = -(p : ℤ) := by ring
    rwa [e2, e1] at this
  have er : ∀ l : List (Sec ℝ), realMesh (l.map (flSec (fl := rne p (1 - 2 * p)))) = l := by
    intro l
    unfold realMesh
    rw [List.map_map]
    exact List.map_id l
  refine ⟨p, (boxB - 0) / n, u, N * u, ⟨r0.sectors.map flSec, r0.matchIndex⟩, hp1', u0, u8, ⟨hr, u0.le, u0.le, ?_, ?_, le_rfl, ?_, ?_, ?_⟩, ?_, by linarith, ?_, ?_, ?_⟩
  · rw [er]; exact hf
  · intro s hs
    obtain ⟨t, ht, rfl⟩ := List.mem_map.mp hs
    have := hw t ht
    show u ≤ t.max - t.min
    linarith
  · intro s hs
    obtain ⟨t, ht, rfl⟩ := List.mem_map.mp hs
    have h1 := hw t ht
    show 0 < rne p (1 - 2 * p) (t.max - t.min)
    have h2 := hr.err (t.max - t.min)
    have hp0 : 0 < t.max - t.min := by linarith
    rw [abs_of_pos hp0, max_eq_left (by linarith : u ≤ t.max - t.min)] at h2
    have h3 := (abs_le.mp h2).1
    have h4 : u * (t.max - t.min) ≤ 1 / 8 * (t.max - t.min) := mul_le_mul_of_nonneg_right u8 (by linarith)
    linarith
  · intro m _ _ Z _ i _
    simp
  · intro s hs
    refine ⟨fun k hk => ?_, fun k _ => rfl⟩
    have : oriented (fun _ : ℝ => (0 : ℝ)) (realSec s) = fun _ => 0 := by unfold oriented; split <;> rfl
    simp only [this]
    unfold legendreCoeff
    simp
  · simp [hN]
  · have e : C * (((boxB - 0) / n) ^ 16 + N * u) = C * (((boxB - 0) / n) ^ 16 + 0) + C * N * u := by ring
    rw [e]; linarith
  · show r0.matchIndex < (r0.sectors.map flSec).length
    rw [List.length_map]; omega
  · intro j
    rw [er]
    obtain ⟨y, dy, h1, h2, h3, h4, -, -⟩ := hev j
    exact ⟨y, dy, h1, h2, h3, h4⟩

end Verif.Fp
