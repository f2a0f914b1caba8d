import Verif.Lemmas.HalfOde
import Verif.Props.HalfRange
import Verif.Props.Formulas
import Verif.Props.EigenConverge
import Mathlib.Analysis.SpecialFunctions.Trigonometric.DerivHyp

/-!
# C99: a half-range problem solves the symmetric problem on the whole domain

`MatsliseHalf` (`Model/HalfRange`) works on `[0, xmax]` with a Neumann and a Dirichlet condition at 0 and merges the two spectra. Here the result is compared with the exact
spectrum and the exact eigenfunctions of the symmetric problem on `[-xmax, xmax]`, whose condition at `-xmax` is the mirror image of `side`.
-/
namespace Verif.HalfRange
open Verif YT Solver

/-- **C99**: the eigenvalue with number `2k` of the symmetric problem on `[-a, a]` is the eigenvalue with number `k` of the problem on `[0, a]` with the Neumann condition at `0`, the one
with number `2k+1` is number `k` with the Dirichlet condition. -/
theorem C99_half_spectrum {V : ℝ → ℝ} {a : ℝ} (ha : 0 < a) (hc : ContinuousOn V (Set.Icc 0 a)) (hV : ∀ x ∈ Set.Icc 0 a, V (-x) = V x) (side : Y ℝ) (hs : side.y ≠ 0 ∨ side.dy ≠ 0) (k : ℕ) (E : ℝ) :
    (IsEigenvalueNrOn V (-a) a (side.y, -side.dy) (side.y, side.dy) (2 * k) E ↔
      IsEigenvalueNrOn V 0 a ((Y.neumann : Y ℝ).y, (Y.neumann : Y ℝ).dy) (side.y, side.dy) k E) ∧
    (IsEigenvalueNrOn V (-a) a (side.y, -side.dy) (side.y, side.dy) (2 * k + 1) E ↔
      IsEigenvalueNrOn V 0 a ((Y.dirichlet : Y ℝ).y, (Y.dirichlet : Y ℝ).dy) (side.y, side.dy) k E) := by
  refine ⟨⟨fun h => ?_, fun h => ?_⟩, ⟨fun h => ?_, fun h => ?_⟩⟩
  · have := full_to_half (s := (side.y, side.dy)) ha hc hV hs h
    rw [if_pos (by omega), show 2 * k / 2 = k by omega] at this
    exact this
  · exact half_to_full (s := (side.y, side.dy)) true ha hc hV h
  · have := full_to_half (s := (side.y, side.dy)) ha hc hV hs h
    rw [if_neg (by omega), show (2 * k + 1) / 2 = k by omega] at this
    exact this
  · exact half_to_full (s := (side.y, side.dy)) false ha hc hV h

/-- Merging. -/
theorem merge_right {V : ℝ → ℝ} {a δ : ℝ} (ha : 0 < a) (hc : ContinuousOn V (Set.Icc 0 a)) (hV : ∀ x ∈ Set.Icc 0 a, V (-x) = V x) (side : Y ℝ) (hs : side.y ≠ 0 ∨ side.dy ≠ 0)
    {e o : List (Int × ℝ)}
    (He : ∀ p ∈ e, ∃ (n : ℕ) (lam : ℝ), p.1 = n ∧ IsEigenvalueNrOn V 0 a ((Y.neumann : Y ℝ).y, (Y.neumann : Y ℝ).dy) (side.y, side.dy) n lam ∧ |p.2 - lam| ≤ δ)
    (Ho : ∀ p ∈ o, ∃ (n : ℕ) (lam : ℝ), p.1 = n ∧ IsEigenvalueNrOn V 0 a ((Y.dirichlet : Y ℝ).y, (Y.dirichlet : Y ℝ).dy) (side.y, side.dy) n lam ∧ |p.2 - lam| ≤ δ)
    (p : Int × ℝ) (hp : p ∈ merge e o) :
    ∃ (n : ℕ) (lam : ℝ), p.1 = n ∧ IsEigenvalueNrOn V (-a) a (side.y, -side.dy) (side.y, side.dy) n lam ∧ |p.2 - lam| ≤ δ := by
  rcases merge_mem hp with ⟨q, hq, rfl⟩ | ⟨q, hq, rfl⟩
  · obtain ⟨n, lam, h1, h2, h3⟩ := He q hq
    exact ⟨2 * n, lam, by simp [h1], ((C99_half_spectrum ha hc hV side hs n lam).1).mpr h2, h3⟩
  · obtain ⟨n, lam, h1, h2, h3⟩ := Ho q hq
    exact ⟨2 * n + 1, lam, by simp [h1], ((C99_half_spectrum ha hc hV side hs n lam).2).mpr h2, h3⟩

/-- **C99**: if the problem on `[0, a]` is solved to within `δ` for both conditions at `0` (as C95 shows for the solver), `MatsliseHalf::eigenvaluesByIndex` is right to within `δ` for
the symmetric problem on `[-a, a]`. -/
theorem C99_half_by_index {V : ℝ → ℝ} {a δ : ℝ} (ha : 0 < a) (hc : ContinuousOn V (Set.Icc 0 a)) (hV : ∀ x ∈ Set.Icc 0 a, V (-x) = V x) (side : Y ℝ) (hs : side.y ≠ 0 ∨ side.dy ≠ 0)
    (ms : Inner ℝ) (Imin Imax : Int) (h0 : 0 ≤ Imin) (h1 : Imin ≤ Imax)
    (hms : ∀ (i j : Int) (y0 : Y ℝ) (l : List (Int × ℝ)), y0 = Y.neumann ∨ y0 = Y.dirichlet → 0 ≤ i → i ≤ j → ms.eigenvaluesByIndex i j y0 side = .ok l →
      RightFor δ (IsEigenvalueNrOn V 0 a (y0.y, y0.dy) (side.y, side.dy)) l i j)
    (L : List (Int × ℝ)) (h : eigenvaluesByIndex ms Imin Imax side = .ok L) :
    RightFor δ (IsEigenvalueNrOn V (-a) a (side.y, -side.dy) (side.y, side.dy)) L Imin Imax := by
  obtain ⟨⟨c1, c2⟩, -⟩ := C26_index_range ms Imin Imax side L h0 h1 (fun i j y0 l hy hi hj hl => ⟨(hms i j y0 l hy hi hj hl).1, (hms i j y0 l hy hi hj hl).2.1⟩) h
  refine ⟨c1, c2, ?_⟩
  unfold eigenvaluesByIndex at h
  obtain ⟨e, he, h⟩ := Outcome.bind_eq_ok.mp h
  obtain ⟨o, ho, h⟩ := Outcome.bind_eq_ok.mp h
  simp only [Outcome.pure_eq, Outcome.ok.injEq] at h
  subst h
  have e1 : Imin.tdiv 2 = Imin / 2 := Int.tdiv_eq_ediv_of_nonneg h0
  have e2 : Imax.tdiv 2 = Imax / 2 := Int.tdiv_eq_ediv_of_nonneg (by omega)
  have e3 : Imin.tmod 2 = Imin % 2 := Int.tmod_eq_emod_of_nonneg h0
  have e4 : Imax.tmod 2 = Imax % 2 := Int.tmod_eq_emod_of_nonneg (by omega)
  have He := hms _ _ _ _ (.inl rfl) (by rw [e1, e3]; omega) (by rw [e1, e2, e3, e4]; omega) he
  have Ho := hms _ _ _ _ (.inr rfl) (by rw [e1]; omega) (by rw [e1, e2]; omega) ho
  exact merge_right ha hc hV side hs He.2.2 Ho.2.2

/-- **C99**: the same for `MatsliseHalf::eigenvalues` (as C91 shows for the solver). -/
theorem C99_half_window {V : ℝ → ℝ} {a δ : ℝ} (ha : 0 < a) (hc : ContinuousOn V (Set.Icc 0 a)) (hV : ∀ x ∈ Set.Icc 0 a, V (-x) = V x) (side : Y ℝ) (hs : side.y ≠ 0 ∨ side.dy ≠ 0)
    (ms : Inner ℝ) (Emin Emax : ℝ)
    (hms : ∀ (y0 : Y ℝ) (l : List (Int × ℝ)), y0 = Y.neumann ∨ y0 = Y.dirichlet → ms.eigenvalues Emin Emax y0 side = .ok l →
      RightBetween δ (IsEigenvalueNrOn V 0 a (y0.y, y0.dy) (side.y, side.dy)) l Emin Emax)
    (L : List (Int × ℝ)) (h : eigenvalues ms Emin Emax side = .ok L) :
    RightBetween δ (IsEigenvalueNrOn V (-a) a (side.y, -side.dy) (side.y, side.dy)) L Emin Emax := by
  unfold eigenvalues at h
  obtain ⟨e, he, h⟩ := Outcome.bind_eq_ok.mp h
  obtain ⟨o, ho, h⟩ := Outcome.bind_eq_ok.mp h
  simp only [Outcome.pure_eq, Outcome.ok.injEq] at h
  subst h
  have He := hms _ _ (.inl rfl) he
  have Ho := hms _ _ (.inr rfl) ho
  refine ⟨merge_right ha hc hV side hs He.1 Ho.1, ?_⟩
  intro n lam hn hlo hhi
  have mem : ∀ p : Int × ℝ, p ∈ e.map (fun p => (2 * p.1, p.2)) ++ o.map (fun p => (2 * p.1 + 1, p.2)) → p ∈ merge e o := fun p hp => (C27_merge_complete e o).mem_iff.mpr hp
  rcases Nat.even_or_odd' n with ⟨k, rfl | rfl⟩
  · obtain ⟨E', h1, h2⟩ := He.2 k lam ((C99_half_spectrum ha hc hV side hs k lam).1.mp hn) hlo hhi
    exact ⟨E', mem _ (List.mem_append_left _ (List.mem_map.mpr ⟨_, h1, by simp⟩)), h2⟩
  · obtain ⟨E', h1, h2⟩ := Ho.2 k lam ((C99_half_spectrum ha hc hV side hs k lam).2.mp hn) hlo hhi
    exact ⟨E', mem _ (List.mem_append_right _ (List.mem_map.mpr ⟨_, h1, by simp⟩)), h2⟩

/-- The row of the array overload at `x`, from the inner value `v` at `|x|`. -/
noncomputable def mirrored (s : ℝ) (even : Bool) (x : ℝ) (v : ℝ × ℝ) : ℝ × ℝ :=
  if x < 0 then (if even then (v.1 * s, -(v.2 * s)) else (-(v.1 * s), v.2 * s)) else (v.1 * s, v.2 * s)

/-- The array overload, for an inner evaluation that is only known up to a relation. -/
theorem evalArray_rel (s : ℝ) (even : Bool) (f : EigFun ℝ) (R : ℝ → ℝ × ℝ → Prop) (xs : List ℝ) (hxs : xs.Pairwise (· ≤ ·))
    (hf : ∀ ys : List ℝ, ys.Pairwise (· ≤ ·) → (∀ y ∈ ys, ∃ x ∈ xs, y = |x|) → ∃ vs, f.array ys = .ok vs ∧ List.Forall₂ R ys vs) :
    ∃ ws, evalArray s even f xs = .ok ws ∧ List.Forall₂ (fun x w => ∃ v, R |x| v ∧ w = mirrored s even x v) xs ws := by
  obtain ⟨l, m, rfl, hl, hm⟩ := sorted_split xs hxs
  have hn : negatives (l ++ m) = l.length := by
    simpa [negatives] using negativesFrom_split l m 0 hl hm
  have hp := List.pairwise_append.mp hxs
  obtain ⟨vn, e1, r1⟩ := hf (l.reverse.map (fun x => -x)) (by
      rw [List.pairwise_map, List.pairwise_reverse]
      exact hp.1.imp (fun h => neg_le_neg h)) (by
      intro y hy
      simp only [List.mem_map, List.mem_reverse] at hy
      obtain ⟨x, hx, rfl⟩ := hy
      exact ⟨x, by simp [hx], (abs_of_neg (hl x hx)).symm⟩)
  obtain ⟨vp, e2, r2⟩ := hf m hp.2.1 (fun y hy => ⟨y, by simp [hy], (abs_of_nonneg (hm y hy)).symm⟩)
  have hu : unsorted (l ++ m) = false := (unsorted_iff _).mpr hxs
  have ln : vn.length = l.length := by have := r1.length_eq; simpa using this.symm
  have lp : vp.length = m.length := r2.length_eq.symm
  unfold evalArray
  simp only [hu, Bool.false_eq_true, if_false, hn, List.take_left, List.drop_left, e1, e2, Outcome.bind_ok]
  have rows : ∀ j (hj : j < (l ++ m).length), ∃ w, row s even l.length vn vp j = .ok w ∧ ∃ v, R |(l ++ m)[j]| v ∧ w = mirrored s even (l ++ m)[j] v := by
    intro j hj
    unfold row
    by_cases hjl : j < l.length
    · have hx : l[j] < 0 := hl _ (List.getElem_mem hjl)
      have hk : l.length - 1 - j < vn.length := by omega
      have rr := (List.forall₂_iff_get.mp r1).2 (l.length - 1 - j) (by simp; omega) hk
      have hidx : l.length - 1 - (l.length - 1 - j) = j := by omega
      simp only [List.get_eq_getElem, List.getElem_map, List.getElem_reverse, hidx] at rr
      rw [if_pos hjl, Outcome.get_of_lt hk]
      refine ⟨_, rfl, vn[l.length - 1 - j], ?_, ?_⟩
      · rw [List.getElem_append_left hjl, abs_of_neg hx]; exact rr
      · simp only [List.getElem_append_left hjl, mirrored, if_pos hx]
        cases even <;> simp
    · have hjm' : j - l.length < m.length := by simp at hj; omega
      have hjm : j - l.length < vp.length := by omega
      have hx : 0 ≤ m[j - l.length] := hm _ (List.getElem_mem hjm')
      have rr := (List.forall₂_iff_get.mp r2).2 (j - l.length) hjm' hjm
      simp only [List.get_eq_getElem] at rr
      rw [if_neg hjl, Outcome.get_of_lt hjm]
      refine ⟨_, rfl, vp[j - l.length], ?_, ?_⟩
      · rw [List.getElem_append_right (not_lt.mp hjl), abs_of_nonneg hx]; exact rr
      · simp only [List.getElem_append_right (not_lt.mp hjl), mirrored, if_neg (not_lt.mpr hx)]
  choose! g hg using fun j => show ∃ w, ∀ hj : j < (l ++ m).length, row s even l.length vn vp j = .ok w ∧ ∃ v, R |(l ++ m)[j]| v ∧ w = mirrored s even (l ++ m)[j] v from by
    by_cases hj : j < (l ++ m).length
    · obtain ⟨w, h⟩ := rows j hj
      exact ⟨w, fun _ => h⟩
    · exact ⟨0, fun h => absurd h hj⟩
  refine ⟨(List.range (l ++ m).length).map g, Outcome.mapList_of_forall fun j hj => (hg j (List.mem_range.mp hj)).1, ?_⟩
  rw [List.forall₂_iff_get]
  refine ⟨by simp, fun i h1 h2 => ?_⟩
  simp only [List.get_eq_getElem, List.getElem_map, List.getElem_range]
  exact (hg i h1).2

/-- **C99**: the exact eigenfunctions. From a normalised eigenfunction on `[0, a]`, the even or odd extension divided by `√2` is a normalised eigenfunction of the symmetric problem. -/
theorem C99_extension_normalised {V : ℝ → ℝ} {a lam : ℝ} (even : Bool) (ha : 0 < a) (hV : ∀ x ∈ Set.Icc 0 a, V (-x) = V x) (side : Y ℝ) {u du : ℝ → ℝ} {G : ℝ → ℝ × ℝ}
    (hG : IsExtension even (Real.sqrt (1 / 2)) (fun x => (u x, du x)) G)
    (h : IsEigenfunctionOn V 0 a ((getY0 even : Y ℝ).y, (getY0 even : Y ℝ).dy) (side.y, side.dy) lam u du) :
    IsEigenfunctionOn V (-a) a (side.y, -side.dy) (side.y, side.dy) lam (fun x => (G x).1) (fun x => (G x).2) := by
  obtain ⟨σ, hσ⟩ : ∃ σ, σ = Real.sqrt (1 / 2) := ⟨_, rfl⟩
  obtain ⟨c, hcc⟩ : ∃ c : ℝ, c = if even then 1 else -1 := ⟨_, rfl⟩
  have hl := h.left
  have b1 : c * (σ * u 0 + 0 * u 0) = σ * u 0 + 0 * u 0 := by
    rw [hcc]
    cases even
    · have : u 0 = 0 := by simpa [getY0, Y.dirichlet] using hl
      simp [this]
    · simp
  have b2 : -(c * (σ * du 0 + 0 * du 0)) = σ * du 0 + 0 * du 0 := by
    rw [hcc]
    cases even
    · simp
    · have : du 0 = 0 := by simpa [getY0, Y.neumann] using hl.symm
      simp [this]
  have hext := SolvesOn.extend ha.le hV (h.solves.comb h.solves σ 0) b1 b2
  have pos : ∀ x, 0 ≤ x → G x = (u x * σ, du x * σ) := fun x hx => by rw [hG.1 x (not_lt.mpr hx), hσ]
  have neg : ∀ x, x < 0 → G x = (c * (u (-x) * σ), -(c * (du (-x) * σ))) := fun x hx => by
    rw [hG.2 x hx, hcc, hσ]; cases even <;> simp
  refine ⟨SolvesOn.congr hext ?_ ?_, ?_, ?_, ?_⟩
  · intro x _
    by_cases hx : 0 ≤ x
    · rw [pos x hx, if_pos hx]; ring
    · rw [neg x (not_le.mp hx), if_neg hx]; ring
  · intro x _
    by_cases hx : 0 ≤ x
    · rw [pos x hx, if_pos hx]; ring
    · rw [neg x (not_le.mp hx), if_neg hx]; ring
  · rw [neg (-a) (by linarith), neg_neg]
    simp only
    linear_combination -c * σ * h.right
  · rw [pos a ha.le]
    simp only
    linear_combination σ * h.right
  · have hu : ContinuousOn u (Set.Icc 0 a) := fun x hx => (h.solves.d1 x hx).continuousWithinAt
    have key := C30_extension_norm even u du G hG a ha.le ((hu.pow 2).intervalIntegrable_of_Icc ha.le)
    have e : ∀ f : ℝ → ℝ, ∀ t, f t * f t = f t ^ 2 := fun f t => by ring
    have n := h.norm
    simp only [e u] at n
    rw [← n, ← key]
    simp only [pow_two]

/-- **C99**: if the inner eigenfunction's array overload is within `δ` of `± u` (as C98 shows for the solver), the half-range object's array overload, on every sorted list of points of
`[-a, a]`, is within `δ` of `± G`, where `G` is the normalised eigenfunction of the symmetric problem. -/
theorem C99_half_eigenfunction (even : Bool) {a δ ς : ℝ} {u du : ℝ → ℝ} {G : ℝ → ℝ × ℝ} (hG : IsExtension even (Real.sqrt (1 / 2)) (fun x => (u x, du x)) G) (f : EigFun ℝ)
    (hf : ∀ ys : List ℝ, (∀ y ∈ ys, y ∈ Set.Icc 0 a) → ∃ vs, f.array ys = .ok vs ∧ List.Forall₂ (fun y v => |v.1 - ς * u y| ≤ δ ∧ |v.2 - ς * du y| ≤ δ) ys vs)
    (xs : List ℝ) (hxs : xs.Pairwise (· ≤ ·)) (hd : ∀ x ∈ xs, x ∈ Set.Icc (-a) a) :
    ∃ ws, (eigFunHalf (Real.sqrt (1 / 2)) even f).array xs = .ok ws ∧ List.Forall₂ (fun x w => |w.1 - ς * (G x).1| ≤ δ ∧ |w.2 - ς * (G x).2| ≤ δ) xs ws := by
  have s0 : 0 ≤ Real.sqrt (1 / 2) := Real.sqrt_nonneg _
  have s1 : Real.sqrt (1 / 2) ≤ 1 := Real.sqrt_le_one.mpr (by norm_num)
  obtain ⟨ws, e, r⟩ := evalArray_rel (Real.sqrt (1 / 2)) even f (fun y v => |v.1 - ς * u y| ≤ δ ∧ |v.2 - ς * du y| ≤ δ) xs hxs (fun ys _ hy => hf ys (fun y h => by
    obtain ⟨x, hx, rfl⟩ := hy y h
    exact ⟨abs_nonneg _, abs_le.mpr (hd x hx)⟩))
  refine ⟨ws, e, r.imp ?_⟩
  rintro x w ⟨v, ⟨h1, h2⟩, rfl⟩
  obtain ⟨σ, hσ⟩ : ∃ σ, σ = Real.sqrt (1 / 2) := ⟨_, rfl⟩
  rw [← hσ] at s0 s1 hG ⊢
  have sc : ∀ p q : ℝ, |p - ς * q| ≤ δ → |p * σ - ς * (q * σ)| ≤ δ := fun p q h => by
    rw [show p * σ - ς * (q * σ) = (p - ς * q) * σ by ring, abs_mul, abs_of_nonneg s0]
    exact (mul_le_of_le_one_right (abs_nonneg _) s1).trans h
  have ng : ∀ p q : ℝ, |p * σ - ς * (q * σ)| ≤ δ → |-(p * σ) - ς * (-(q * σ))| ≤ δ := fun p q h => by
    rw [show -(p * σ) - ς * (-(q * σ)) = -(p * σ - ς * (q * σ)) by ring, abs_neg]; exact h
  by_cases hx : x < 0
  · rw [abs_of_neg hx] at h1 h2
    rw [hG.2 x hx, mirrored, if_pos hx]
    cases even
    · exact ⟨ng _ _ (sc _ _ h1), sc _ _ h2⟩
    · exact ⟨sc _ _ h1, ng _ _ (sc _ _ h2)⟩
  · rw [abs_of_nonneg (not_lt.mp hx)] at h1 h2
    rw [hG.1 x hx, mirrored, if_neg hx]
    exact ⟨sc _ _ h1, sc _ _ h2⟩

open Verif.Mesh Verif.Spec Verif.Eigen Verif.Legendre in
/-- **C99**, end to end for eigenfunctions: for a smooth even potential, the half-range object built from the solver's own eigenfunction on `[0, a]` at an energy `E` near the eigenvalue `lam` of the
half problem is, on every sorted list of points of `[-a, a]`, within a constant times `H^15 + ε + eps + |E - lam|` of a normalised eigenfunction of the symmetric problem. -/
theorem C99_half_eigenfunction_converges (M : ℝ) (hM : 1 ≤ M) : ∃ C : ℝ, 1 ≤ C ∧ ∀ (eps ε : ℝ) (eta : ℕ → ℝ → ℕ → ℝ) (vs : Sec ℝ → ℕ → ℝ) (V : ℝ → ℝ)
    (a H lam E : ℝ) (r : BuildResult ℝ) (even : Bool) (side : Y ℝ) (u du : ℝ → ℝ) (G : ℝ → ℝ × ℝ),
    FitMesh eps M H (fun _ => V) 0 a r.sectors → AccurateTo ε (fun _ => V) r.sectors eta vs → a ≤ M → 1 / M ≤ a → |lam| ≤ M → eps ≤ 1 → (∀ x ∈ Set.Icc 0 a, V (-x) = V x) →
    r.matchIndex < r.sectors.length → (side.y ≠ 0 ∨ side.dy ≠ 0) → side.yE = 0 → side.dyE = 0 →
    IsEigenfunctionOn V 0 a ((getY0 even : Y ℝ).y, (getY0 even : Y ℝ).dy) (side.y, side.dy) lam u du →
    IsExtension even (Real.sqrt (1 / 2)) (fun x => (u x, du x)) G →
    C * (H ^ 16 + ε + |E - lam|) ≤ 1 →
    IsEigenfunctionOn V (-a) a (side.y, -side.dy) (side.y, side.dy) lam (fun x => (G x).1) (fun x => (G x).2) ∧
    ∃ f ς, Eigen.eigenfunction Real.sqrt (constructOf eps eta vs 0 a r) E (getY0 even) side = .ok f ∧ (ς = 1 ∨ ς = -1) ∧
      ∀ xs : List ℝ, xs.Pairwise (· ≤ ·) → (∀ x ∈ xs, x ∈ Set.Icc (-a) a) →
        ∃ ws, (eigFunHalf (Real.sqrt (1 / 2)) even ⟨f.eval, f.evalArray⟩).array xs = .ok ws ∧
          List.Forall₂ (fun x w => |w.1 - ς * (G x).1| ≤ C * (H ^ 15 + ε + eps + |E - lam|) ∧ |w.2 - ς * (G x).2| ≤ C * (H ^ 15 + ε + eps + |E - lam|)) xs ws := by
  obtain ⟨C, hC, key⟩ := C98_eigenfunction_converges M hM
  refine ⟨C, hC, ?_⟩
  intro eps ε eta vs V a H lam E r even side u du G hf hacc ha ha' hlam heps hV hm hs s3 s4 hu hG hκ
  have hM0 : 0 < 1 / M := by positivity
  have a0 : 0 < a := by linarith
  refine ⟨C99_extension_normalised even a0 hV side hG hu, ?_⟩
  have ok := fit_ok hf (by linarith) (by linarith)
  have hne : r.sectors ≠ [] := fun h => by rw [h] at hm; simp at hm
  have eig : IsEigenfunction (fun _ => V) r.sectors 0 a ((getY0 even : Y ℝ).y, (getY0 even : Y ℝ).dy) (side.y, side.dy) lam u du :=
    ⟨(solvesMesh_iff ok.chn ok.pos hne).mpr hu.solves, hu.left, hu.right, hu.norm⟩
  have y0 : ((getY0 even : Y ℝ).y ≠ 0 ∨ (getY0 even : Y ℝ).dy ≠ 0) ∧ (getY0 even : Y ℝ).yE = 0 ∧ (getY0 even : Y ℝ).dyE = 0 := by
    cases even <;> simp [getY0, Y.neumann, Y.dirichlet]
  obtain ⟨f, ς, k1, k2, -, k3, -⟩ := key eps ε eta vs (fun _ => V) 0 a H lam E r (getY0 even) side u du hf hacc (by linarith) (by linarith) hlam hm y0.1 hs y0.2.1 y0.2.2 s3 s4 eig hκ
  refine ⟨f, ς, k1, k2, fun xs hxs hd => ?_⟩
  exact C99_half_eigenfunction (a := a) even hG _ (fun ys hy => k3 ys hy eps hf.eps_nonneg heps (fun x _ s _ _ _ => ⟨fun h => h, fun h => h⟩)) xs hxs hd

/-- **C99**, what the symmetry check does not give: `checkSymmetry` compares the two boundary values entry by entry. For a condition that mixes `y` and `y'`, equal values are not mirror images of
each other: the problem `-y'' = E y` on `[-1, 1]` with `y = y'` at both ends passes the check and has the eigenvalue `-1` (eigenfunction `exp`), which is an eigenvalue of neither of the
two problems on `[0, 1]` that are solved instead. -/
theorem C99_equal_sides_not_symmetric : ∃ side : Y ℝ, checkSymmetry side side = .ok () ∧
    IsEigenvalueOn (fun _ => 0) (-1) 1 (side.y, side.dy) (side.y, side.dy) (-1) ∧
    ∀ even, ¬ IsEigenvalueOn (fun _ => 0) 0 1 ((getY0 even : Y ℝ).y, (getY0 even : Y ℝ).dy) (side.y, side.dy) (-1) := by
  refine ⟨⟨1, 1, 0, 0⟩, by simp [checkSymmetry, yEq], ⟨Real.exp, Real.exp, ⟨fun x _ => (Real.hasDerivAt_exp x).hasDerivWithinAt, fun x _ => ?_⟩, ⟨0, by norm_num, by simp⟩, rfl, rfl⟩, ?_⟩
  · exact (Real.hasDerivAt_exp x).hasDerivWithinAt.congr_deriv (by ring)
  · rintro even ⟨y, dy, hy, ⟨x, hx, hne⟩, hl, hr⟩
    have hC : SolvesOn (fun _ => 0) (-1) 0 1 Real.cosh Real.sinh :=
      ⟨fun x _ => (Real.hasDerivAt_cosh x).hasDerivWithinAt, fun x _ => (Real.hasDerivAt_sinh x).hasDerivWithinAt.congr_deriv (by ring)⟩
    have hS : SolvesOn (fun _ => 0) (-1) 0 1 Real.sinh Real.cosh :=
      ⟨fun x _ => (Real.hasDerivAt_sinh x).hasDerivWithinAt, fun x _ => (Real.hasDerivAt_cosh x).hasDerivWithinAt.congr_deriv (by ring)⟩
    have ex : Real.cosh 1 - Real.sinh 1 ≠ 0 := by rw [Real.cosh_sub_sinh]; exact (Real.exp_pos _).ne'
    have hr' : y 1 = dy 1 := by simpa using hr
    have m1 : (1 : ℝ) ∈ Set.Icc (0 : ℝ) 1 := by norm_num
    have z : y 1 = 0 := by
      cases even
      · have h0 : y 0 = 0 := by simpa [getY0, Y.dirichlet] using hl
        have w := wronskian_const hy hS m1
        rw [h0, ← hr', Real.sinh_zero] at w
        have : y 1 * (Real.cosh 1 - Real.sinh 1) = 0 := by linear_combination w
        exact (mul_eq_zero.mp this).resolve_right ex
      · have h0 : dy 0 = 0 := by simpa [getY0, Y.neumann] using hl.symm
        have w := wronskian_const hy hC m1
        rw [h0, ← hr', Real.sinh_zero] at w
        have : y 1 * (Real.cosh 1 - Real.sinh 1) = 0 := by linear_combination -w
        exact (mul_eq_zero.mp this).resolve_right ex
    exact hne (on_zero continuousOn_const hy m1 z (by rw [← hr', z]) hx).1

/-! ### Non-vacuity: the free particle on `[-1, 1]` with Dirichlet conditions -/

theorem box_even : IsEigenvalueNrOn (fun _ => 0) 0 1 (1, 0) (0, 1) 0 ((Real.pi / 2) ^ 2) := by
  have d : ∀ x : ℝ, HasDerivAt (fun x => Real.pi / 2 * x) (Real.pi / 2) x := fun x => by simpa using (hasDerivAt_id x).const_mul (Real.pi / 2)
  have z : ({x ∈ Set.Ioo (0 : ℝ) 1 | Real.cos (Real.pi / 2 * x) = 0} : Set ℝ) = ∅ := by
    ext x
    simp only [Set.mem_ofPred_eq, Set.mem_Ioo, Set.mem_empty_iff_false, iff_false, not_and]
    intro hx
    refine (Real.cos_pos_of_mem_Ioo ⟨?_, ?_⟩).ne' <;> nlinarith [Real.pi_pos]
  refine ⟨fun x => Real.cos (Real.pi / 2 * x), fun x => -(Real.pi / 2 * Real.sin (Real.pi / 2 * x)), ⟨fun x _ => ?_, fun x _ => ?_⟩, ⟨0, by norm_num, by simp⟩, by simp, by simp, ?_, ?_⟩
  · exact ((Real.hasDerivAt_cos _).comp x (d x)).hasDerivWithinAt.congr_deriv (by ring)
  · exact (((Real.hasDerivAt_sin _).comp x (d x)).const_mul (Real.pi / 2)).neg.hasDerivWithinAt.congr_deriv (by ring)
  · rw [z]; exact Set.finite_empty
  · rw [z]; simp

theorem box_odd : IsEigenvalueNrOn (fun _ => 0) 0 1 (0, 1) (0, 1) 0 (Real.pi ^ 2) := by
  have d : ∀ x : ℝ, HasDerivAt (fun x => Real.pi * x) Real.pi x := fun x => by simpa using (hasDerivAt_id x).const_mul Real.pi
  have z : ({x ∈ Set.Ioo (0 : ℝ) 1 | Real.sin (Real.pi * x) = 0} : Set ℝ) = ∅ := by
    ext x
    simp only [Set.mem_ofPred_eq, Set.mem_Ioo, Set.mem_empty_iff_false, iff_false, not_and]
    intro hx
    refine (Real.sin_pos_of_mem_Ioo ⟨?_, ?_⟩).ne' <;> nlinarith [Real.pi_pos]
  refine ⟨fun x => Real.sin (Real.pi * x), fun x => Real.pi * Real.cos (Real.pi * x), ⟨fun x _ => ?_, fun x _ => ?_⟩, ⟨1 / 2, by norm_num, ?_⟩, by simp, by simp, ?_, ?_⟩
  · exact ((Real.hasDerivAt_sin _).comp x (d x)).hasDerivWithinAt.congr_deriv (by ring)
  · exact (((Real.hasDerivAt_cos _).comp x (d x)).const_mul Real.pi).hasDerivWithinAt.congr_deriv (by ring)
  · change Real.sin (Real.pi * (1 / 2)) ≠ 0
    rw [show Real.pi * (1 / 2) = Real.pi / 2 by ring, Real.sin_pi_div_two]; norm_num
  · rw [z]; exact Set.finite_empty
  · rw [z]; simp

/-- An inner problem that knows the lowest eigenvalue for each condition at `0`. -/
noncomputable def boxInner : Inner ℝ where
  matchingError _ _ _ := .ok 0
  eigenvalueError _ _ _ := .ok 0
  eigenvaluesByIndex i j y0 _ := if i = 0 ∧ j = 1 then .ok [(0, if y0.y = 1 then (Real.pi / 2) ^ 2 else Real.pi ^ 2)] else .throws "not known"
  eigenvalues _ _ _ _ := .ok []
  eigenfunction _ _ _ := .throws "not known"

/-- The two lowest eigenvalues of the symmetric problem on `[-1, 1]`. -/
example : ∃ L, eigenvaluesByIndex boxInner 0 2 Y.dirichlet = .ok L ∧ L = [(0, (Real.pi / 2) ^ 2), (1, Real.pi ^ 2)] ∧
    RightFor 0 (IsEigenvalueNrOn (fun _ => 0) (-1) 1 (0, -1) (0, 1)) L 0 2 := by
  refine ⟨[(0, (Real.pi / 2) ^ 2), (1, Real.pi ^ 2)], ?_, rfl, ?_⟩
  · simp [eigenvaluesByIndex, boxInner, merge, Y.neumann, Y.dirichlet]
  refine C99_half_by_index (V := fun _ => 0) (a := 1) one_pos continuousOn_const (fun _ _ => rfl) Y.dirichlet (Or.inr one_ne_zero) boxInner 0 2 le_rfl (by norm_num) ?_ _ ?_
  · intro i j y0 l hy hi hj hl
    have hij : i = 0 ∧ j = 1 := by
      by_contra hn
      simp [boxInner, hn] at hl
    obtain ⟨rfl, rfl⟩ := hij
    simp only [boxInner, and_self, if_true, Outcome.ok.injEq] at hl
    subst hl
    refine ⟨by simp, fun k => ?_, fun p hp => ?_⟩
    · simp only [List.mem_singleton, exists_eq_left]; omega
    · simp only [List.mem_singleton] at hp
      subst hp
      rcases hy with rfl | rfl
      · exact ⟨0, _, rfl, box_even, by simp [Y.neumann]⟩
      · exact ⟨0, _, rfl, box_odd, by simp [Y.dirichlet]⟩
  · simp [eigenvaluesByIndex, boxInner, merge, Y.neumann, Y.dirichlet]

/-- The odd extension of the function `x`, evaluated on both sides of 0. -/
example : ∃ ws, (eigFunHalf (Real.sqrt (1 / 2)) false ⟨fun x => .ok (x, 1), fun xs => .ok (xs.map fun x => (x, 1))⟩).array [-1, -1 / 2, 0, 1] = .ok ws ∧
    List.Forall₂ (fun x w => |w.1 - 1 * (x * Real.sqrt (1 / 2))| ≤ 0 ∧ |w.2 - 1 * Real.sqrt (1 / 2)| ≤ 0) [-1, -1 / 2, 0, 1] ws := by
  have hG : IsExtension false (Real.sqrt (1 / 2)) (fun x : ℝ => (x, 1)) (fun x => (x * Real.sqrt (1 / 2), Real.sqrt (1 / 2))) :=
    ⟨fun x _ => by simp, fun x _ => by simp⟩
  refine C99_half_eigenfunction (a := 1) (u := fun x => x) (du := fun _ => 1) false hG _ (fun ys _ => ⟨_, rfl, ?_⟩) _ ?_ ?_
  · rw [List.forall₂_map_right_iff, List.forall₂_same]
    simp
  · norm_num
  · intro x hx
    simp only [List.mem_cons, List.not_mem_nil, or_false] at hx
    rcases hx with rfl | rfl | rfl | rfl <;> norm_num

open Verif.Mesh Verif.Spec Verif.Eigen Verif.Legendre in
/-- `V = x²` on `[-1, 1]` through `[0, 1]`, the ground state, on every fine uniform mesh. -/
example : ∃ C : ℝ, 1 ≤ C ∧ ∀ (n : ℕ) (cmp : Sec ℝ → Sec ℝ → Bool), 2 * C ≤ n → ∃ (r : BuildResult ℝ) (G : ℝ → ℝ × ℝ), uniformBuild cmp n 0 1 = .ok r ∧
    IsEigenfunctionOn (fun x => x ^ 2) (-1) 1 (1, - -1) (1, -1) 1 (fun x => (G x).1) (fun x => (G x).2) ∧
    ∃ f ς, Eigen.eigenfunction Real.sqrt (constructOf 0 CalcT.etaExact (exactVs fun x => x ^ 2) 0 1 r) 1 (getY0 true) ⟨1, -1, 0, 0⟩ = .ok f ∧ (ς = 1 ∨ ς = -1) ∧
      ∀ xs : List ℝ, xs.Pairwise (· ≤ ·) → (∀ x ∈ xs, x ∈ Set.Icc (-1 : ℝ) 1) → ∃ ws, (eigFunHalf (Real.sqrt (1 / 2)) true ⟨f.eval, f.evalArray⟩).array xs = .ok ws ∧
        List.Forall₂ (fun x w => |w.1 - ς * (G x).1| ≤ C * ((1 - 0) / n) ^ 15 ∧ |w.2 - ς * (G x).2| ≤ C * ((1 - 0) / n) ^ 15) xs ws := by
  obtain ⟨C, hC, key⟩ := C99_half_eigenfunction_converges 2 (by norm_num)
  refine ⟨C, hC, fun n cmp hn => ?_⟩
  have hn0 : (0 : ℝ) < n := by linarith
  obtain ⟨h1, -, -, -⟩ := inv_small hC hn
  have h3 : 0 < ((1 : ℝ) - 0) / n := by positivity
  have hi : ((1 : ℝ) - 0) / n ≤ 1 / C := by
    rw [div_le_div_iff₀ hn0 (by linarith)]; linarith
  have h2 : ((1 : ℝ) - 0) / n ≤ 1 := hi.trans (by rw [div_le_one (by linarith)]; exact hC)
  have h4 : C * (((1 : ℝ) - 0) / n) ^ 16 ≤ 1 := by
    have h5 : (((1 : ℝ) - 0) / n) ^ 16 ≤ ((1 : ℝ) - 0) / n := pow_le_of_le_one h3.le h2 (by norm_num)
    calc C * (((1 : ℝ) - 0) / n) ^ 16 ≤ C * (1 / C) := mul_le_mul_of_nonneg_left (h5.trans hi) (by linarith)
      _ = 1 := by field_simp
  obtain ⟨r, e1, hlen, hm, hf, hc, hp, hne⟩ := uniform_fit cmp h1 le_rfl (SmoothOn.shrink osc_smooth (show (-1 : ℝ) ≤ 0 by norm_num) (le_refl (1 : ℝ))) h2 h3
  have hv : CoeffsWithin 0 (fun _ x => x ^ 2) r.sectors (exactVs fun x => x ^ 2) := coeffs_on_mesh (exact_coeffs _ _ _ _) hf hc hp
  have acc : AccurateTo 0 (fun _ x => x ^ 2) r.sectors CalcT.etaExact (exactVs fun x => x ^ 2) := ⟨by norm_num, 0, 0, CalcT.etaWithin_exact, hv, by simp⟩
  have ev : IsEigenvalueOn (fun x => x ^ 2) 0 1 (1, 0) (1, -1) 1 :=
    ⟨_, _, SolvesOn.shrink osc_solves (show (-1 : ℝ) ≤ 0 by norm_num) (le_refl (1 : ℝ)), ⟨0, by norm_num, (Real.exp_pos _).ne'⟩, by norm_num, by norm_num⟩
  obtain ⟨u, du, hu⟩ := C98_eigenfunction_exists (by norm_num) hf (by norm_num) (by norm_num) (by norm_num) ((isEigenvalue_iff hc hp hne _ _ _).mpr ev)
  have hu' : IsEigenfunctionOn (fun x => x ^ 2) 0 1 ((getY0 true : Y ℝ).y, (getY0 true : Y ℝ).dy) (1, -1) 1 u du :=
    ⟨(solvesMesh_iff hc hp hne).mp hu.solves, hu.left, hu.right, hu.norm⟩
  obtain ⟨G, hG⟩ : ∃ G : ℝ → ℝ × ℝ, IsExtension true (Real.sqrt (1 / 2)) (fun x => (u x, du x)) G :=
    ⟨fun x => if x < 0 then (u (-x) * Real.sqrt (1 / 2), -(du (-x) * Real.sqrt (1 / 2))) else (u x * Real.sqrt (1 / 2), du x * Real.sqrt (1 / 2)),
      fun x hx => by simp [hx], fun x hx => by simp [hx]⟩
  obtain ⟨k1, f, ς, k2, k3, k4⟩ := key 0 0 CalcT.etaExact (exactVs fun x => x ^ 2) (fun x => x ^ 2) 1 ((1 - 0) / n) 1 1 r true ⟨1, -1, 0, 0⟩ u du G hf acc (by norm_num) (by norm_num) (by norm_num)
    (by norm_num) (fun x _ => by ring) hm (by norm_num) rfl rfl hu' hG (by simpa using h4)
  refine ⟨r, G, e1, k1, f, ς, k2, k3, fun xs h1 h2 => ?_⟩
  have := k4 xs h1 h2
  simpa using this

end Verif.HalfRange
