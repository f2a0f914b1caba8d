import Verif.Lemmas.ExactRange

/-!
# C112: the numbers of eigenvalues
The solver identifies an eigenvalue by its number. Here: for every potential that is continuous in each sector and every pair of boundary conditions the eigenvalues are
`λ 0 < λ 1 < λ 2 < …`, one for each number and no others, with explicit bounds on where the `n`-th of them is.
-/
namespace Verif.Solver
open Verif Verif.Prufer Verif.Mesh Verif.Spec
open Real (pi)

/-- The problem of the theorem: sectors that tile the domain, a potential continuous in each of them with values in `[vlo, vhi]`. -/
structure BoundedProblem (W : Sec ℝ → ℝ → ℝ) (secs : List (Sec ℝ)) (dmin dmax vlo vhi : ℝ) : Prop where
  mesh : IsMesh secs dmin dmax
  wide : ∀ s ∈ secs, s.min < s.max
  cont : ∀ s ∈ secs, ContinuousOn (W s) (Set.Icc s.min s.max)
  lo : ∀ s ∈ secs, ∀ x ∈ Set.Icc s.min s.max, vlo ≤ W s x
  hi : ∀ s ∈ secs, ∀ x ∈ Set.Icc s.min s.max, W s x ≤ vhi

theorem BoundedProblem.lt {W : Sec ℝ → ℝ → ℝ} {secs : List (Sec ℝ)} {dmin dmax vlo vhi : ℝ} (h : BoundedProblem W secs dmin dmax vlo vhi) : dmin < dmax := by
  have hc := chn_of_tiling _ h.mesh.tiling
  obtain ⟨s, hs⟩ : ∃ s, s ∈ secs := List.exists_mem_of_length_pos h.mesh.length_pos
  obtain ⟨h1, h2⟩ := (chn_range hc h.wide).2 s hs
  have := h.wide s hs
  linarith

theorem BoundedProblem.ok {W : Sec ℝ → ℝ → ℝ} {secs : List (Sec ℝ)} {dmin dmax vlo vhi : ℝ} (h : BoundedProblem W secs dmin dmax vlo vhi) (K : ℝ) :
    ∃ M, 1 ≤ M ∧ K ≤ M ∧ Ok M W dmin secs dmax := by
  have hlt := h.lt
  have hL : 0 < dmax - dmin := by linarith
  have hi : 0 < 1 / (dmax - dmin) := by positivity
  have p1 := abs_nonneg vlo
  have p2 := abs_nonneg vhi
  have p3 := abs_nonneg K
  obtain ⟨M, hM⟩ : ∃ M, M = 1 + (dmax - dmin) + 1 / (dmax - dmin) + |vlo| + |vhi| + |K| := ⟨_, rfl⟩
  have hM1 : 1 ≤ M := by linarith
  refine ⟨M, hM1, by have := le_abs_self K; linarith, chn_of_tiling _ h.mesh.tiling, h.wide, h.cont, fun s hs x hx => ?_, by linarith, ?_⟩
  · have h1 := h.lo s hs x hx
    have h2 := h.hi s hs x hx
    have := neg_abs_le vlo
    have := le_abs_self vhi
    rw [abs_le]
    constructor <;> linarith
  · rw [div_le_iff₀ (by linarith), ← div_le_iff₀' hL]
    linarith

/-- **C112** (oscillation). For every potential continuous in each sector, with values in `[vlo, vhi]`, and all boundary conditions there is a sequence `λ 0 < λ 1 < …` such that the eigenvalue with
number `n` (an eigenfunction with `n` zeros inside) exists and is `λ n`, and every eigenvalue is one of them. With `ℓ = dmax - dmin` and any `m > 0` that bounds the slopes
`-y'/y` on the left and `y'/y` on the right that the boundary conditions prescribe,
`vlo - (m² + π m / ℓ) ≤ λ n ≤ vhi + ((n + 1) π / ℓ)²` and `vlo + (n π / ℓ)² ≤ λ (n + 1)` for `n ≥ 1`. -/
theorem C112_oscillation (W : Sec ℝ → ℝ → ℝ) (secs : List (Sec ℝ)) (dmin dmax vlo vhi m : ℝ) (L R : ℝ × ℝ) (hP : BoundedProblem W secs dmin dmax vlo vhi)
    (hL : L.1 ≠ 0 ∨ L.2 ≠ 0) (hR : R.1 ≠ 0 ∨ R.2 ≠ 0) (hm : 0 < m) (m1 : -(L.1 * L.2) ≤ m * L.1 ^ 2) (m2 : R.1 * R.2 ≤ m * R.1 ^ 2) :
    ∃ lam : ℕ → ℝ, StrictMono lam ∧ (∀ n E, IsEigenvalueNr W secs dmin dmax L R n E ↔ E = lam n) ∧
      (∀ E, IsEigenvalue W secs dmin dmax L R E ↔ ∃ n, E = lam n) ∧
      (∀ n : ℕ, vlo - (m ^ 2 + pi * m / (dmax - dmin)) ≤ lam n ∧ lam n ≤ vhi + ((n + 1) * pi / (dmax - dmin)) ^ 2) ∧
      ∀ n : ℕ, 1 ≤ n → vlo + (n * pi / (dmax - dmin)) ^ 2 ≤ lam (n + 1) := by
  have pos : ∀ Y : ℝ × ℝ, (Y.1 ≠ 0 ∨ Y.2 ≠ 0) → 0 < sz Y := fun Y h => sz_pos_iff.mpr (fun h' => h.elim (fun q => q h'.1) (fun q => q h'.2))
  have hL' := pos L hL
  have hR' := pos R hR
  have hp := Real.pi_pos
  obtain ⟨lo, hlo⟩ : ∃ lo, lo = vlo - (m ^ 2 + pi * m / (dmax - dmin)) := ⟨_, rfl⟩
  rw [← hlo]
  -- numbers and eigenvalues are in the same order
  have order : ∀ n k E F, IsEigenvalueNr W secs dmin dmax L R n E → IsEigenvalueNr W secs dmin dmax L R k F → n < k → E < F := by
    intro n k E F hE hF hnk
    obtain ⟨M, hM, hMK, ok⟩ := hP.ok (max |E| |F|)
    obtain ⟨C, hC, key⟩ := exact_count M hM
    obtain ⟨D, y, dy, z, dz, hD⟩ := key W dmin dmax secs L R ok hL' hR'
    have e1 := (le_max_left _ _).trans hMK
    have e2 := (le_max_right _ _).trans hMK
    rw [← hD.mono' hC e1 e2, (hD.index E e1 n).mpr ⟨n, rfl, hE⟩, (hD.index F e2 k).mpr ⟨k, rfl, hF⟩]
    exact mul_lt_mul_of_pos_right (by exact_mod_cast hnk) hp
  have uniq : ∀ n E F, IsEigenvalueNr W secs dmin dmax L R n E → IsEigenvalueNr W secs dmin dmax L R n F → E = F := by
    intro n E F hE hF
    obtain ⟨M, hM, hMK, ok⟩ := hP.ok (max |E| |F|)
    obtain ⟨C, hC, key⟩ := exact_count M hM
    obtain ⟨D, y, dy, z, dz, hD⟩ := key W dmin dmax secs L R ok hL' hR'
    have e1 := (le_max_left _ _).trans hMK
    have e2 := (le_max_right _ _).trans hMK
    have q1 := (hD.index E e1 n).mpr ⟨n, rfl, hE⟩
    have q2 := (hD.index F e2 n).mpr ⟨n, rfl, hF⟩
    refine le_antisymm ?_ ?_
    · by_contra hc
      have := (hD.mono' hC e2 e1).mpr (not_le.mp hc)
      rw [q1, q2] at this
      exact lt_irrefl _ this
    · by_contra hc
      have := (hD.mono' hC e1 e2).mpr (not_le.mp hc)
      rw [q1, q2] at this
      exact lt_irrefl _ this
  -- where the `n`-th is
  have upper : ∀ (n : ℕ) (E : ℝ), IsEigenvalueNr W secs dmin dmax L R n E → E ≤ vhi + ((n + 1) * pi / (dmax - dmin)) ^ 2 := by
    intro n E hE
    obtain ⟨M, hM, hMK, ok⟩ := hP.ok (max |E| |vhi + ((n + 1) * pi / (dmax - dmin)) ^ 2|)
    obtain ⟨C, hC, key⟩ := exact_count M hM
    obtain ⟨D, y, dy, z, dz, hD⟩ := key W dmin dmax secs L R ok hL' hR'
    have e1 := (le_max_left _ _).trans hMK
    have e2 := (le_max_right _ _).trans hMK
    have q1 := (hD.index E e1 n).mpr ⟨n, rfl, hE⟩
    have q2 := ExactCount.high hM ok hL' hD e2 n hP.hi le_rfl
    by_contra hc
    have := (hD.mono' hC e2 e1).mpr (not_le.mp hc)
    rw [q1] at this
    push_cast at this
    linarith
  have lower : ∀ (n : ℕ) (E : ℝ), IsEigenvalueNr W secs dmin dmax L R n E → lo ≤ E := by
    intro n E hE
    by_contra hc
    push Not at hc
    obtain ⟨M, hM, hMK, ok⟩ := hP.ok (max |E| |(E + lo) / 2|)
    obtain ⟨C, hC, key⟩ := exact_count M hM
    obtain ⟨D, y, dy, z, dz, hD⟩ := key W dmin dmax secs L R ok hL' hR'
    have e1 := (le_max_left _ _).trans hMK
    have e2 := (le_max_right _ _).trans hMK
    have q1 := (hD.index E e1 n).mpr ⟨n, rfl, hE⟩
    have q2 := ExactCount.bottom hM ok hL' hD e2 hR' hm m1 m2 hP.lo (by rw [← hlo]; linarith)
    have := (hD.mono' hC e1 e2).mpr (by linarith)
    rw [q1] at this
    push_cast at this
    have : 0 ≤ (n : ℝ) * pi := by positivity
    linarith
  have lower2 : ∀ (n : ℕ) (E : ℝ), 1 ≤ n → IsEigenvalueNr W secs dmin dmax L R (n + 1) E → vlo + (n * pi / (dmax - dmin)) ^ 2 ≤ E := by
    intro n E hn hE
    obtain ⟨M, hM, hMK, ok⟩ := hP.ok (max |E| |vlo + (n * pi / (dmax - dmin)) ^ 2|)
    obtain ⟨C, hC, key⟩ := exact_count M hM
    obtain ⟨D, y, dy, z, dz, hD⟩ := key W dmin dmax secs L R ok hL' hR'
    have e1 := (le_max_left _ _).trans hMK
    have e2 := (le_max_right _ _).trans hMK
    have q1 := (hD.index E e1 (n + 1)).mpr ⟨n + 1, by push_cast; rfl, hE⟩
    have q2 := ExactCount.low hM ok hL' hD e2 hn hP.lo le_rfl
    by_contra hc
    have := (hD.mono' hC e1 e2).mpr (not_le.mp hc)
    rw [q1] at this
    push_cast at this
    linarith
  have exist : ∀ n : ℕ, ∃ E, IsEigenvalueNr W secs dmin dmax L R n E := by
    intro n
    obtain ⟨M, hM, hMK, ok⟩ := hP.ok (max |lo - 1| |vhi + ((n + 1) * pi / (dmax - dmin)) ^ 2|)
    obtain ⟨C, hC, key⟩ := exact_count M hM
    obtain ⟨D, y, dy, z, dz, hD⟩ := key W dmin dmax secs L R ok hL' hR'
    have e1 := (le_max_left _ _).trans hMK
    have e2 := (le_max_right _ _).trans hMK
    have q1 := ExactCount.bottom hM ok hL' hD e1 hR' hm m1 m2 hP.lo (by rw [← hlo]; linarith)
    have q2 := ExactCount.high hM ok hL' hD e2 n hP.hi le_rfl
    have hle : lo - 1 ≤ vhi + ((n + 1) * pi / (dmax - dmin)) ^ 2 := by
      have hlh : vlo ≤ vhi := by
        obtain ⟨s, hs⟩ : ∃ s, s ∈ secs := List.exists_mem_of_length_pos hP.mesh.length_pos
        have := hP.wide s hs
        exact (hP.lo s hs s.min ⟨le_rfl, this.le⟩).trans (hP.hi s hs s.min ⟨le_rfl, this.le⟩)
      have := sq_nonneg ((n + 1) * pi / (dmax - dmin))
      have := sq_nonneg m
      have : 0 ≤ pi * m / (dmax - dmin) := div_nonneg (by positivity) (by linarith [hP.lt])
      linarith
    obtain ⟨E, -, -, h3, h4⟩ := hD.ivt (t := ((n : ℤ) : ℝ) * pi) hC e1 e2 hle (q1.trans (by positivity)) (by push_cast; exact q2)
    obtain ⟨k, hk, hE⟩ := (hD.index E h3 n).mp h4
    have : k = n := by exact_mod_cast hk.symm
    exact ⟨E, this ▸ hE⟩
  choose lam hlam using exist
  refine ⟨lam, fun n k hnk => order n k _ _ (hlam n) (hlam k) hnk, fun n E => ⟨fun h => uniq n _ _ h (hlam n), fun h => h ▸ hlam n⟩, fun E => ⟨?_, ?_⟩,
    fun n => ⟨lower n _ (hlam n), upper n _ (hlam n)⟩, fun n hn => lower2 n _ hn (hlam (n + 1))⟩
  · rintro ⟨y, dy, hy, hne, el, er⟩
    obtain ⟨M, hM, hMK, ok⟩ := hP.ok |E|
    obtain ⟨x, hx, hx0⟩ := hne
    have c1 := ok_c1 hM ok hMK hy hx (sz_pos_iff.mpr fun h => hx0 h.1)
    have hlt := hP.lt
    obtain ⟨θ0, t1, -⟩ := exists_normal_angle (y dmin) (dy dmin) 0 1
    obtain ⟨Θ, hΘ, -⟩ := contAngle_exists hlt (sc := 1) one_pos c1 ⟨le_rfl, hlt.le⟩ (θ := θ0) (by rw [one_mul]; exact t1)
    have hfin : ({x ∈ Set.Ioo dmin dmax | y x = 0} : Set ℝ).Finite := (count_Ioc one_pos c1 hΘ ⟨le_rfl, hlt.le⟩ ⟨hlt.le, le_rfl⟩ hlt.le).1.subset
      (fun x hx => ⟨⟨hx.1.1, hx.1.2.le⟩, hx.2⟩)
    exact ⟨_, uniq _ _ _ ⟨y, dy, hy, ⟨x, hx, hx0⟩, el, er, hfin, rfl⟩ (hlam _)⟩
  · rintro ⟨n, rfl⟩
    obtain ⟨y, dy, h1, h2, h3, h4, -⟩ := hlam n
    exact ⟨y, dy, h1, h2, h3, h4⟩

/-- Non-vacuity: a potential that jumps, `0` on `[0, 1]` and `x` on `[1, 2]`, with `y(0) = 0` on the left and `y'(2) = y(2)` on the right. Its lowest eigenvalue is at most `2 + π²/4`. -/
example : ∃ lam : ℕ → ℝ, StrictMono lam ∧
    (∀ n E, IsEigenvalueNr (fun s x => if s.dir = .backward then x else 0) [⟨0, 1, .forward⟩, ⟨1, 2, .backward⟩] 0 2 (0, 1) (1, 1) n E ↔ E = lam n) ∧ lam 0 ≤ 2 + (pi / 2) ^ 2 := by
  have hP : BoundedProblem (fun s x => if s.dir = .backward then x else 0) [⟨0, 1, .forward⟩, ⟨1, 2, .backward⟩] 0 2 0 2 := by
    refine ⟨⟨⟨by simp [bounds], ?_, ?_, ?_⟩, ?_⟩, ?_, ?_, ?_, ?_⟩
    · intro p hp; simp [bounds] at hp; rw [← hp]
    · intro p hp; simp [bounds] at hp; rw [← hp]
    · intro i hi
      simp [bounds] at hi
      subst hi
      exact Or.inl rfl
    · intro s hs
      have hs : s = ⟨0, 1, .forward⟩ ∨ s = ⟨1, 2, .backward⟩ := by simpa using hs
      rcases hs with rfl | rfl <;> simp
    all_goals
      intro s hs
      have hs : s = ⟨0, 1, .forward⟩ ∨ s = ⟨1, 2, .backward⟩ := by simpa using hs
      rcases hs with rfl | rfl
    · norm_num
    · norm_num
    · simpa using continuousOn_const
    · simp only [if_true]; exact continuousOn_id
    · intro x hx; simp
    · intro x hx; simp at hx ⊢; linarith [hx.1]
    · intro x hx; simp
    · intro x hx; simp at hx ⊢; linarith [hx.2]
  obtain ⟨lam, h1, h2, -, h4, -⟩ := C112_oscillation _ _ 0 2 0 2 1 (0, 1) (1, 1) hP (Or.inr one_ne_zero) (Or.inl one_ne_zero) one_pos (by norm_num) (by norm_num)
  refine ⟨lam, h1, h2, ?_⟩
  have := (h4 0).2
  norm_num at this
  exact this

end Verif.Solver
