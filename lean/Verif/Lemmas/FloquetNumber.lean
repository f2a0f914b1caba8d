import Verif.Lemmas.Crossing
import Mathlib.Order.Monotone.Basic
import Mathlib.Tactic.IntervalCases

/-!
# Numbering the roots of `f = 2`
-/
namespace Verif.Cross

variable {f B : ℝ → ℝ} {D : ℝ → Prop}

/-- `P 0 ≤ P 1 ≤ …` are the roots of `f = 2` in `I`, the double ones twice. -/
structure Listed (f : ℝ → ℝ) (D : ℝ → Prop) (I : Set ℝ) (P : ℕ → ℝ) : Prop where
  mono : Monotone P
  roots : ∀ E, (f E = 2 ∧ E ∈ I) ↔ ∃ n, E = P n
  dbl : ∀ n, P n = P (n + 1) → D (P n)
  simple : ∀ n, D (P n) → P n = P (n + 1) ∨ ∃ k, n = k + 1 ∧ P k = P n
  three : ∀ n, P n < P (n + 2)

theorem build (h : Floquet f B D) {ν : ℕ → ℝ} (hν : StrictMono ν) (unb : ∀ x, ∃ n, x < ν n) (lo : ∀ j, f (ν (2 * j)) ≤ -2) (hi : ∀ j, 2 ≤ f (ν (2 * j + 1)))
    (B0 : ∀ n, ∀ E ∈ Set.Ioo (ν n) (ν (n + 1)), B E ≠ 0) :
    ∃ P, Listed f D (Set.Ici (ν 0)) P ∧ ∀ j, ν (2 * j) < P (2 * j) ∧ P (2 * j) ≤ ν (2 * j + 1) ∧ ν (2 * j + 1) ≤ P (2 * j + 1) ∧ P (2 * j + 1) < ν (2 * j + 2) := by
  have ex : ∀ j, ∃ pq : ℝ × ℝ, Pair f D (ν (2 * j)) (ν (2 * j + 1)) (ν (2 * j + 2)) pq.1 pq.2 := fun j => by
    obtain ⟨p, q, hpq⟩ := h.pair (hν (show 2 * j < 2 * j + 1 by omega)) (hν (show 2 * j + 1 < 2 * j + 2 by omega)) (B0 _) (B0 _) (lo j) (hi j) (lo (j + 1))
    exact ⟨(p, q), hpq⟩
  choose g hg using ex
  obtain ⟨P, hP⟩ : ∃ P : ℕ → ℝ, P = fun n => if n % 2 = 0 then (g (n / 2)).1 else (g (n / 2)).2 := ⟨_, rfl⟩
  have e0 : ∀ j, P (2 * j) = (g j).1 := fun j => by rw [hP]; simp
  have e1 : ∀ j, P (2 * j + 1) = (g j).2 := fun j => by
    rw [hP]
    have a : (2 * j + 1) % 2 = 1 := by omega
    have b : (2 * j + 1) / 2 = j := by omega
    simp [a, b]
  have place : ∀ j, ν (2 * j) < P (2 * j) ∧ P (2 * j) ≤ ν (2 * j + 1) ∧ ν (2 * j + 1) ≤ P (2 * j + 1) ∧ P (2 * j + 1) < ν (2 * j + 2) := fun j => by
    rw [e0, e1]; exact ⟨(hg j).left, (hg j).le1, (hg j).le2, (hg j).right⟩
  have par : ∀ n : ℕ, ∃ j, n = 2 * j ∨ n = 2 * j + 1 := fun n => ⟨n / 2, by omega⟩
  refine ⟨P, ⟨monotone_nat_of_le_succ fun n => ?_, fun E => ⟨fun ⟨e, hE⟩ => ?_, ?_⟩, fun n e => ?_, fun n hD => ?_, fun n => ?_⟩, place⟩
  · obtain ⟨j, rfl | rfl⟩ := par n
    · exact (place j).2.1.trans (place j).2.2.1
    · exact ((place j).2.2.2.trans (place (j + 1)).1).le
  · -- in which interval
    classical
    have hex := unb E
    obtain ⟨n, hn, hmin⟩ : ∃ n, E < ν n ∧ ∀ m < n, ¬ E < ν m := ⟨Nat.find hex, Nat.find_spec hex, fun m hm => Nat.find_min hex hm⟩
    have hn0 : n ≠ 0 := fun e => by subst e; exact absurd hE (not_le.mpr hn)
    obtain ⟨j, hj1, hj2⟩ : ∃ j, ν (2 * j) ≤ E ∧ E ≤ ν (2 * j + 2) := by
      obtain ⟨j, hj | hj⟩ := par (n - 1)
      · have : n = 2 * j + 1 := by omega
        exact ⟨j, not_lt.mp (hmin _ (by omega)), hn.le.trans (by rw [this]; exact hν.monotone (by omega))⟩
      · have : n = 2 * j + 2 := by omega
        exact ⟨j, not_lt.mp (hmin _ (by omega)), by rw [← this]; exact hn.le⟩
    rcases ((hg j).roots E ⟨hj1, hj2⟩).mp e with r | r
    · exact ⟨2 * j, by rw [e0]; exact r⟩
    · exact ⟨2 * j + 1, by rw [e1]; exact r⟩
  · rintro ⟨n, rfl⟩
    obtain ⟨j, rfl | rfl⟩ := par n
    · have q := place j
      refine ⟨((hg j).roots _ ⟨q.1.le, by linarith⟩).mpr (.inl (e0 j)), ?_⟩
      exact (hν.monotone (Nat.zero_le _)).trans q.1.le
    · have q := place j
      refine ⟨((hg j).roots _ ⟨by linarith, q.2.2.2.le⟩).mpr (.inr (e1 j)), ?_⟩
      exact (hν.monotone (Nat.zero_le _)).trans q.2.2.1
  · obtain ⟨j, rfl | rfl⟩ := par n
    · rw [e0, e1] at e
      rw [e0]
      exact (hg j).eq e
    · have := ((place j).2.2.2.trans (place (j + 1)).1)
      exact absurd e this.ne
  · obtain ⟨j, rfl | rfl⟩ := par n
    · rw [e0] at hD
      left
      rw [e0, e1]
      by_contra hc
      exact ((hg j).ne hc).1 hD
    · rw [e1] at hD
      right
      refine ⟨2 * j, rfl, ?_⟩
      rw [e0, e1]
      by_contra hc
      exact ((hg j).ne hc).2 hD
  · obtain ⟨j, rfl | rfl⟩ := par n
    · have a := place j
      have b := place (j + 1)
      have : 2 * (j + 1) = 2 * j + 2 := by ring
      rw [this] at b
      linarith
    · have a := place j
      have b := place (j + 1)
      have e : 2 * (j + 1) = 2 * j + 2 := by ring
      rw [e] at b
      show P (2 * j + 1) < P (2 * j + 3)
      linarith

/-- One pair: the next two numbers. -/
theorem Listed.step {P : ℕ → ℝ} (hP : Listed f D Set.univ P) {a m b p q : ℝ} (hp : Pair f D a m b p q) {k : ℕ} (before : ∀ i < k, P i < a) (after : a < P k) :
    P k = p ∧ P (k + 1) = q ∧ b < P (k + 2) := by
  have rt : ∀ n, f (P n) = 2 := fun n => ((hP.roots (P n)).mpr ⟨n, rfl⟩).1
  have hpq := hp.le1.trans hp.le2
  have l1 := hp.left
  have l2 := hp.right
  obtain ⟨n, hn⟩ := (hP.roots p).mp ⟨(hp.roots p ⟨l1.le, by linarith⟩).mpr (.inl rfl), trivial⟩
  obtain ⟨n', hn'⟩ := (hP.roots q).mp ⟨(hp.roots q ⟨by linarith, l2.le⟩).mpr (.inr rfl), trivial⟩
  have hkn : k ≤ n := by
    by_contra hc
    push Not at hc
    have := before n hc
    rw [← hn] at this
    linarith
  have k1 : P k ≤ p := by rw [hn]; exact hP.mono hkn
  have ek : P k = p := by
    rcases (hp.roots (P k) ⟨after.le, by linarith⟩).mp (rt k) with e | e
    · exact e
    · exact le_antisymm k1 (by rw [e]; exact hpq)
  have ek1 : P (k + 1) = q := by
    by_cases hd : p = q
    · have dp := hp.eq hd
      rw [← ek] at dp
      rcases hP.simple k dp with e | ⟨i, rfl, e⟩
      · rw [← e, ek, hd]
      · have := before i (by omega)
        rw [e] at this
        linarith
    · have lt : p < q := lt_of_le_of_ne hpq hd
      have hn2 : k + 1 ≤ n' := by
        by_contra hc
        have : n' ≤ k := by omega
        have := hP.mono this
        rw [← hn', ek] at this
        linarith
      have u : P (k + 1) ≤ q := by rw [hn']; exact hP.mono hn2
      have l : P k ≤ P (k + 1) := hP.mono (by omega)
      rcases (hp.roots (P (k + 1)) ⟨by linarith, by linarith⟩).mp (rt _) with e | e
      · exfalso
        have := hP.dbl k (by rw [ek, e])
        rw [ek] at this
        exact (hp.ne hd).1 this
      · exact e
  refine ⟨ek, ek1, ?_⟩
  by_contra hc
  push Not at hc
  have l : P (k + 1) ≤ P (k + 2) := hP.mono (by omega)
  rcases (hp.roots (P (k + 2)) ⟨by linarith, hc⟩).mp (rt _) with e | e
  · have := hP.three k
    rw [ek, e] at this
    exact lt_irrefl _ this
  · by_cases hd : p = q
    · have := hP.three k
      rw [ek, e, hd] at this
      exact lt_irrefl _ this
    · have := hP.dbl (k + 1) (by rw [ek1, e])
      rw [ek1] at this
      exact (hp.ne hd).2 this

/-- All further pairs. -/
theorem Listed.chain (h : Floquet f B D) {P : ℕ → ℝ} (hP : Listed f D Set.univ P) {κ : ℕ → ℝ} (hκ : StrictMono κ) (lo : ∀ j, f (κ (2 * j)) ≤ -2) (hi : ∀ j, 2 ≤ f (κ (2 * j + 1)))
    (B0 : ∀ n, ∀ E ∈ Set.Ioo (κ n) (κ (n + 1)), B E ≠ 0) {k : ℕ} (before : ∀ i < k, P i < κ 0) (after : κ 0 < P k) :
    ∀ j, κ (2 * j) < P (k + 2 * j) ∧ P (k + 2 * j) ≤ κ (2 * j + 1) ∧ κ (2 * j + 1) ≤ P (k + 2 * j + 1) ∧ P (k + 2 * j + 1) < κ (2 * j + 2) := by
  have ex : ∀ j, ∃ p q : ℝ, Pair f D (κ (2 * j)) (κ (2 * j + 1)) (κ (2 * j + 2)) p q := fun j =>
    h.pair (hκ (show 2 * j < 2 * j + 1 by omega)) (hκ (show 2 * j + 1 < 2 * j + 2 by omega)) (B0 _) (B0 _) (lo j) (hi j) (lo (j + 1))
  have base : ∀ j, (∀ i < k + 2 * j, P i < κ (2 * j)) ∧ κ (2 * j) < P (k + 2 * j) := by
    intro j
    induction j with
    | zero => exact ⟨before, after⟩
    | succ j ih =>
      obtain ⟨p, q, hpq⟩ := ex j
      obtain ⟨e1, e2, e3⟩ := hP.step hpq ih.1 ih.2
      refine ⟨fun i hi => ?_, e3⟩
      have : P i ≤ P (k + 2 * j + 1) := hP.mono (by omega)
      rw [e2] at this
      exact this.trans_lt hpq.right
  intro j
  obtain ⟨p, q, hpq⟩ := ex j
  obtain ⟨e1, e2, e3⟩ := hP.step hpq (base j).1 (base j).2
  rw [e1, e2]
  exact ⟨hpq.left, hpq.le1, hpq.le2, hpq.right⟩

/-- Where no separated eigenvalue lies there is at most one root, and it is simple. -/
theorem Floquet.unique (h : Floquet f B D) {I : Set ℝ} (hI : I.OrdConnected) (h0 : ∀ E ∈ I, B E ≠ 0) {x y : ℝ} (hx : x ∈ I) (hy : y ∈ I) (e1 : f x = 2) (e2 : f y = 2) : x = y := by
  have key : ∀ x y : ℝ, x ∈ I → y ∈ I → f x = 2 → f y = 2 → ¬ x < y := fun x y hx hy e1 e2 hlt => by
    rcases h.direction hI h0 with k | k
    · have := k.above h.cont hI hx hy hlt (c := 2) (by norm_num) e1.ge
      linarith
    · have := k.below h.cont hI hx hy hlt (c := 2) (by norm_num) e1.le
      linarith
  exact le_antisymm (not_lt.mp (key y x hy hx e2 e1)) (not_lt.mp (key x y hx hy e1 e2))

/-- A decreasing function below 2 stays away from 2. -/
theorem Dn.stays {f : ℝ → ℝ} {I : Set ℝ} (hf : Continuous f) (hI : I.OrdConnected) (h : Dn f I) {x y : ℝ} (hx : x ∈ I) (hxy : x < y) (hy : ∀ z ∈ Set.Ioo x y, z ∈ I) (h0 : f x < 2) : f y < 2 := by
  have c1 : |max (f x) (-2)| ≤ 2 := by rw [abs_le]; exact ⟨le_max_right _ _, max_le h0.le (by norm_num)⟩
  have c2 : max (f x) (-2) < 2 := max_lt h0 (by norm_num)
  have : f y ≤ max (f x) (-2) := by
    by_contra hc
    push Not at hc
    have e := (hf.continuousAt (x := y)).eventually (lt_mem_nhds hc)
    rw [Metric.eventually_nhds_iff] at e
    obtain ⟨ε, hε, k⟩ := e
    have m1 : y - ε / 2 ≤ max (y - ε / 2) ((x + y) / 2) := le_max_left _ _
    have m2 : (x + y) / 2 ≤ max (y - ε / 2) ((x + y) / 2) := le_max_right _ _
    have m3 : max (y - ε / 2) ((x + y) / 2) < y := max_lt (by linarith) (by linarith)
    have a := k (y := max (y - ε / 2) ((x + y) / 2)) (by rw [Real.dist_eq, abs_of_neg (by linarith)]; linarith)
    have b := h.below hf hI hx (hy _ ⟨by linarith, m3⟩) (show x < max (y - ε / 2) ((x + y) / 2) by linarith) c1 (le_max_left _ _)
    linarith
  linarith

/-- An increasing function at 2 or above stays there. -/
theorem Up.stays {f : ℝ → ℝ} {I : Set ℝ} (hf : Continuous f) (hI : I.OrdConnected) (h : Up f I) {x y : ℝ} (hx : x ∈ I) (hxy : x < y) (hy : ∀ z ∈ Set.Ioo x y, z ∈ I) (h0 : 2 ≤ f x) : 2 ≤ f y := by
  by_contra hc
  push Not at hc
  have e := (hf.continuousAt (x := y)).eventually (gt_mem_nhds hc)
  rw [Metric.eventually_nhds_iff] at e
  obtain ⟨ε, hε, k⟩ := e
  have m1 : y - ε / 2 ≤ max (y - ε / 2) ((x + y) / 2) := le_max_left _ _
  have m2 : (x + y) / 2 ≤ max (y - ε / 2) ((x + y) / 2) := le_max_right _ _
  have m3 : max (y - ε / 2) ((x + y) / 2) < y := max_lt (by linarith) (by linarith)
  have a := k (y := max (y - ε / 2) ((x + y) / 2)) (by rw [Real.dist_eq, abs_of_neg (by linarith)]; linarith)
  have b := h.above hf hI (c := 2) hx (hy _ ⟨by linarith, m3⟩) (show x < max (y - ε / 2) ((x + y) / 2) by linarith) (by norm_num) h0
  linarith

/-- The eigenvalues of a separated problem, with the values of `f` there alternating. -/
structure Sep (f B : ℝ → ℝ) (hi : Bool) (lam : ℕ → ℝ) : Prop where
  mono : StrictMono lam
  zeros : ∀ E, B E = 0 ↔ ∃ n, E = lam n
  unb : ∀ x, ∃ n, x < lam n
  even : ∀ j, if hi then 2 ≤ f (lam (2 * j)) else f (lam (2 * j)) ≤ -2
  odd : ∀ j, if hi then f (lam (2 * j + 1)) ≤ -2 else 2 ≤ f (lam (2 * j + 1))

theorem Sep.between {hi : Bool} {lam : ℕ → ℝ} (h : Sep f B hi lam) (n : ℕ) : ∀ E ∈ Set.Ioo (lam n) (lam (n + 1)), B E ≠ 0 := fun E hE h0 => by
  obtain ⟨k, rfl⟩ := (h.zeros E).mp h0
  have a := h.mono.lt_iff_lt.mp hE.1
  have b := h.mono.lt_iff_lt.mp hE.2
  omega

theorem Sep.below {hi : Bool} {lam : ℕ → ℝ} (h : Sep f B hi lam) : ∀ E ∈ Set.Iio (lam 0), B E ≠ 0 := fun E hE h0 => by
  obtain ⟨k, rfl⟩ := (h.zeros E).mp h0
  have := h.mono.lt_iff_lt.mp hE
  omega

/-- What is known below the first root. `anti`: from below the strip, else from above. -/
structure Bottom (f : ℝ → ℝ) (anti : Bool) (p : ℝ) : Prop where
  side : ∀ E < p, if anti then f E < 2 else 2 < f E
  low : anti = true → ∃ E < p, f E ≤ -2

/-- The list of roots, from one separated problem. -/
theorem Sep.list (h : Floquet f B D) {lam : ℕ → ℝ} (anti : Bool) (hs : Sep f B anti lam) {E0 : ℝ} (h0 : E0 < lam 0) (hE : if anti then f E0 ≤ -2 else 2 ≤ f E0) :
    ∃ P, Listed f D Set.univ P ∧ Bottom f anti (P 0) := by
  have b0 := hs.below
  cases anti with
  | true =>
    simp only [if_true] at hE
    have e1 := hs.even 0
    simp only [if_true, mul_zero] at e1
    have up : Up f (Set.Iio (lam 0)) := (h.direction Set.ordConnected_Iio b0).resolve_right fun hd =>
      not_dn h.cont h0 hE e1 (hd.mono fun E hE => hE.2)
    obtain ⟨ν, hν⟩ : ∃ ν : ℕ → ℝ, ν = fun n => Nat.casesOn n E0 lam := ⟨_, rfl⟩
    have v0 : ν 0 = E0 := by rw [hν]; rfl
    have vs : ∀ n, ν (n + 1) = lam n := fun n => by rw [hν]
    obtain ⟨P, hP, place⟩ := build (ν := ν) h (strictMono_nat_of_lt_succ fun n => by
        cases n with
        | zero => rw [v0, vs]; exact h0
        | succ n => rw [vs, vs]; exact hs.mono (by omega)) (fun x => (hs.unb x).elim fun n hn => ⟨n + 1, by rw [vs]; exact hn⟩)
      (fun j => by
        cases j with
        | zero => rw [mul_zero, v0]; exact hE
        | succ j => rw [show 2 * (j + 1) = (2 * j + 1) + 1 by ring, vs]; simpa using hs.odd j)
      (fun j => by rw [vs]; simpa using hs.even j)
      (fun n E hE => by
        cases n with
        | zero => rw [v0, vs] at hE; exact b0 E hE.2
        | succ n => rw [vs, vs] at hE; exact hs.between n E hE)
    have none : ∀ E, E ≤ E0 → f E < 2 := fun E hE' => by
      rcases hE'.lt_or_eq with q | q
      · by_contra hc
        push Not at hc
        have := up.above h.cont Set.ordConnected_Iio (c := 2) (q.trans h0) h0 q (by norm_num) hc
        linarith
      · rw [q]; linarith
    have pl := place 0
    rw [mul_zero, v0] at pl
    refine ⟨P, ⟨hP.mono, fun E => ⟨fun ⟨e, _⟩ => (hP.roots E).mp ⟨e, ?_⟩, fun e => ⟨((hP.roots E).mpr e).1, trivial⟩⟩, hP.dbl, hP.simple, hP.three⟩, fun E hE' => ?_, fun _ => ⟨E0, pl.1, hE⟩⟩
    · rw [v0]
      by_contra hc
      have hc : E < E0 := not_le.mp fun q => hc q
      linarith [none E hc.le]
    · simp only [if_true]
      by_contra hc
      push Not at hc
      have l : E0 < E := by
        by_contra hq
        push Not at hq
        linarith [none E hq]
      -- otherwise a root before the first one
      obtain ⟨z, hz, ez⟩ := intermediate_value_Icc l.le h.cont.continuousOn ⟨show f E0 ≤ 2 by linarith, hc⟩
      obtain ⟨n, hn⟩ := (hP.roots z).mp ⟨ez, by rw [v0]; exact hz.1⟩
      have := hP.mono (Nat.zero_le n)
      rw [← hn] at this
      linarith [hz.2]
  | false =>
    simp only [Bool.false_eq_true, if_false] at hE
    have e1 := hs.even 0
    simp only [Bool.false_eq_true, if_false, mul_zero] at e1
    have dn : Dn f (Set.Iio (lam 0)) := (h.direction Set.ordConnected_Iio b0).resolve_left fun hd =>
      not_up h.cont h0 hE e1 (hd.mono fun E hE => hE.2)
    obtain ⟨p, hp, ep⟩ := intermediate_value_Icc' h0.le h.cont.continuousOn ⟨show f (lam 0) ≤ 2 by linarith, hE⟩
    have hpl : p < lam 0 := lt_of_le_of_ne hp.2 (fun e => by rw [e] at ep; linarith)
    obtain ⟨P', hP', place⟩ := build (ν := lam) h hs.mono hs.unb (fun j => by simpa using hs.even j) (fun j => by simpa using hs.odd j) hs.between
    obtain ⟨P, hPd⟩ : ∃ P : ℕ → ℝ, P = fun n => Nat.casesOn n p P' := ⟨_, rfl⟩
    have v0 : P 0 = p := by rw [hPd]; rfl
    have vs : ∀ n, P (n + 1) = P' n := fun n => by rw [hPd]
    have pl := (place 0).1
    rw [mul_zero] at pl
    have nD : ¬ D p := fun hD => b0 p hpl (h.zeroB p hD)
    refine ⟨P, ⟨monotone_nat_of_le_succ fun n => ?_, fun E => ⟨fun ⟨e, _⟩ => ?_, ?_⟩, fun n e => ?_, fun n hD => ?_, fun n => ?_⟩, fun E hE' => ?_, by simp⟩
    · cases n with
      | zero => rw [v0, vs]; linarith
      | succ n => rw [vs, vs]; exact hP'.mono (by omega)
    · rcases lt_or_ge E (lam 0) with q | q
      · exact ⟨0, by rw [v0]; exact h.unique Set.ordConnected_Iio b0 q hpl e ep⟩
      · obtain ⟨n, hn⟩ := (hP'.roots E).mp ⟨e, q⟩
        exact ⟨n + 1, by rw [vs]; exact hn⟩
    · rintro ⟨n, rfl⟩
      cases n with
      | zero => rw [v0]; exact ⟨ep, trivial⟩
      | succ n => rw [vs]; exact ⟨((hP'.roots _).mpr ⟨n, rfl⟩).1, trivial⟩
    · cases n with
      | zero => rw [v0, vs] at e; linarith
      | succ n => rw [vs, vs] at e; rw [vs]; exact hP'.dbl n e
    · cases n with
      | zero => rw [v0] at hD; exact absurd hD nD
      | succ n =>
        rw [vs] at hD
        rw [vs, vs]
        rcases hP'.simple n hD with e | ⟨k, rfl, e⟩
        · exact .inl e
        · exact .inr ⟨k + 1, rfl, by rw [vs]; exact e⟩
    · cases n with
      | zero => rw [v0, vs]; linarith [hP'.mono (show 0 ≤ 1 by omega)]
      | succ n => rw [vs, vs]; exact hP'.three n
    · simp only [Bool.false_eq_true, if_false]
      rw [v0] at hE'
      by_contra hc
      push Not at hc
      have := dn.below h.cont Set.ordConnected_Iio (c := 2) (hE'.trans hpl) hpl hE' (by norm_num) hc
      linarith

/-- Position of the roots among the eigenvalues of any separated problem. -/
theorem Sep.position (h : Floquet f B D) {P : ℕ → ℝ} (hP : Listed f D Set.univ P) {anti hi : Bool} (hb : Bottom f anti (P 0)) {lam : ℕ → ℝ} (hs : Sep f B hi lam) :
    match (generalizing := false) anti, hi with
    | true, true => ∀ j, P (2 * j) ≤ lam (2 * j) ∧ lam (2 * j) ≤ P (2 * j + 1) ∧ P (2 * j + 1) < lam (2 * j + 1) ∧ lam (2 * j + 1) < P (2 * j + 2)
    | true, false => ∀ j, lam (2 * j) < P (2 * j) ∧ P (2 * j) ≤ lam (2 * j + 1) ∧ lam (2 * j + 1) ≤ P (2 * j + 1) ∧ P (2 * j + 1) < lam (2 * j + 2)
    | false, true => ∀ j, lam (2 * j) ≤ P (2 * j) ∧ P (2 * j) < lam (2 * j + 1) ∧ lam (2 * j + 1) < P (2 * j + 1) ∧ P (2 * j + 1) ≤ lam (2 * j + 2)
    | false, false => ∀ j, P (2 * j) < lam (2 * j) ∧ lam (2 * j) < P (2 * j + 1) ∧ P (2 * j + 1) ≤ lam (2 * j + 1) ∧ lam (2 * j + 1) ≤ P (2 * j + 2) := by
  have b0 := hs.below
  have rt : ∀ n, f (P n) = 2 := fun n => ((hP.roots (P n)).mpr ⟨n, rfl⟩).1
  have s0 := hb.side
  have e0 := hs.even 0
  have o0 := hs.odd 0
  rw [mul_zero] at e0
  rw [mul_zero, zero_add] at o0
  have l01 : lam 0 < lam 1 := hs.mono (by omega)
  have noD : ∀ p < lam 0, ¬ D p := fun p hp hD => b0 p hp (h.zeroB p hD)
  have one : P 1 < lam 0 → False := fun hlt => by
    have h1 := hP.mono (show 0 ≤ 1 by omega)
    have e := h.unique Set.ordConnected_Iio b0 (show P 0 ∈ Set.Iio (lam 0) from h1.trans_lt hlt) hlt (rt 0) (rt 1)
    exact noD _ (h1.trans_lt hlt) (hP.dbl 0 e)
  cases anti <;> cases hi <;> simp only [Bool.false_eq_true, if_false, if_true] at s0 e0 o0 ⊢
  · -- periodic, low
    have ne0 : ∀ n, P n ≠ lam 0 := fun n e => by have := rt n; rw [e] at this; linarith
    have p0 : P 0 < lam 0 := by
      by_contra hc
      push Not at hc
      have := s0 (lam 0) (lt_of_le_of_ne hc (ne0 0).symm)
      linarith
    have p1 : lam 0 < P 1 := lt_of_le_of_ne (not_lt.mp one) (ne0 1).symm
    have ch := hP.chain h (κ := lam) hs.mono (fun j => by simpa using hs.even j) (fun j => by simpa using hs.odd j) hs.between (k := 1)
      (fun i hi => by interval_cases i; exact p0) p1
    intro j
    have c := ch j
    rw [show 1 + 2 * j = 2 * j + 1 by ring] at c
    refine ⟨?_, c.1, c.2.1, c.2.2.1⟩
    cases j with
    | zero => exact p0
    | succ j =>
      have c' := (ch j).2.2.2
      rw [show 1 + 2 * j + 1 = 2 * (j + 1) by ring] at c'
      exact c'
  · -- periodic, high
    have ne1 : ∀ n, P n ≠ lam 1 := fun n e => by have := rt n; rw [e] at this; linarith
    have dn01 := h.dn l01 (hs.between 0) e0 o0
    have q0 : lam 0 ≤ P 0 := by
      by_contra hc
      push Not at hc
      rcases h.direction Set.ordConnected_Iio b0 with k | k
      · have := k.above h.cont Set.ordConnected_Iio (c := 2) (x := P 0 - 1) (y := P 0) (show P 0 - 1 < lam 0 by linarith) hc (by linarith) (by norm_num) (s0 _ (by linarith)).le
        linarith [rt 0]
      · have a := k.below h.cont Set.ordConnected_Iio (c := 2) (x := P 0) (y := (P 0 + lam 0) / 2) hc (show (P 0 + lam 0) / 2 < lam 0 by linarith) (by linarith) (by norm_num) (rt 0).le
        have := k.stays h.cont Set.ordConnected_Iio (x := (P 0 + lam 0) / 2) (y := lam 0) (show (P 0 + lam 0) / 2 < lam 0 by linarith) (by linarith) (fun z hz => hz.2) a
        linarith
    have q1 : P 0 < lam 1 := by
      by_contra hc
      push Not at hc
      have := s0 (lam 1) (lt_of_le_of_ne hc (ne1 0).symm)
      linarith
    have q2 : lam 1 < P 1 := by
      by_contra hc
      push Not at hc
      have hlt : P 1 < lam 1 := lt_of_le_of_ne hc (ne1 1)
      have h01 := hP.mono (show 0 ≤ 1 by omega)
      rcases q0.lt_or_eq with q | q
      · have e := h.unique Set.ordConnected_Ioo (hs.between 0) (show P 0 ∈ Set.Ioo (lam 0) (lam 1) from ⟨q, q1⟩) ⟨by linarith, hlt⟩ (rt 0) (rt 1)
        exact hs.between 0 (P 0) ⟨q, q1⟩ (h.zeroB _ (hP.dbl 0 e))
      · -- `P 0 = lam 0`: the curve comes from above and goes below
        have nD : ¬ D (P 0) := fun hD => by
          obtain ⟨-, ε, hε, k⟩ := h.double _ hD
          have := k (P 0 - ε / 2) (by linarith) (by rw [abs_of_neg (by linarith)]; linarith)
          have := s0 (P 0 - ε / 2) (by linarith)
          linarith
        obtain ⟨d, hd, hd'⟩ := h.simple _ (rt 0) nD
        have ne : P 0 ≠ P 1 := fun e => nD (hP.dbl 0 e)
        have lt01 : P 0 < P 1 := lt_of_le_of_ne h01 ne
        rcases lt_or_gt_of_ne hd with s | s
        · obtain ⟨ε, hε, k⟩ := deriv_pos_local hd'.neg (neg_pos.mpr s)
          have m1 : min (P 0 + ε / 2) ((P 0 + P 1) / 2) ≤ P 0 + ε / 2 := min_le_left _ _
          have m2 : min (P 0 + ε / 2) ((P 0 + P 1) / 2) ≤ (P 0 + P 1) / 2 := min_le_right _ _
          have m3 : P 0 < min (P 0 + ε / 2) ((P 0 + P 1) / 2) := lt_min (by linarith) (by linarith)
          have e1 := (k _).1 m3 (by linarith)
          simp only [Pi.neg_apply] at e1
          have := dn01.stays h.cont Set.ordConnected_Ioo (x := min (P 0 + ε / 2) ((P 0 + P 1) / 2)) (y := P 1) ⟨by rw [q]; exact m3, by linarith⟩ (by linarith)
            (fun z hz => ⟨by rw [q]; exact m3.trans hz.1, hz.2.trans hlt⟩) (by linarith [rt 0])
          linarith [rt 1]
        · obtain ⟨ε, hε, k⟩ := deriv_pos_local hd' s
          have e1 := (k (P 0 - ε / 2)).2 (by linarith) (by linarith)
          have := s0 (P 0 - ε / 2) (by linarith)
          linarith [rt 0]
    have ch := hP.chain h (κ := fun n => lam (n + 1)) (fun a b hab => hs.mono (by omega)) (fun j => by simpa using hs.odd j) (fun j => by have := hs.even (j + 1); rw [show 2 * (j + 1) = 2 * j + 1 + 1 by ring] at this; simpa using this)
      (fun n => hs.between (n + 1)) (k := 1) (fun i hi => by interval_cases i; exact q1) q2
    intro j
    have c := ch j
    rw [show 1 + 2 * j = 2 * j + 1 by ring] at c
    cases j with
    | zero => exact ⟨q0, q1, c.1, c.2.1⟩
    | succ j =>
      have c' := ch j
      rw [show 1 + 2 * j + 1 = 2 * (j + 1) by ring] at c'
      exact ⟨c'.2.2.1, c'.2.2.2, c.1, c.2.1⟩
  · -- antiperiodic, low
    have ne0 : ∀ n, P n ≠ lam 0 := fun n e => by have := rt n; rw [e] at this; linarith
    have q0 : lam 0 < P 0 := by
      by_contra hc
      push Not at hc
      have hlt : P 0 < lam 0 := lt_of_le_of_ne hc (ne0 0)
      rcases h.direction Set.ordConnected_Iio b0 with k | k
      · have := k.stays h.cont Set.ordConnected_Iio (x := P 0) (y := lam 0) hlt hlt (fun z hz => hz.2) (rt 0).ge
        linarith
      · have := k.stays h.cont Set.ordConnected_Iio (x := P 0 - 1) (y := P 0) (show P 0 - 1 < lam 0 by linarith) (by linarith) (fun z hz => hz.2.trans hlt) (s0 _ (by linarith))
        linarith [rt 0]
    have ch := hP.chain h (κ := lam) hs.mono (fun j => by simpa using hs.even j) (fun j => by simpa using hs.odd j) hs.between (k := 0) (fun i hi => by omega) q0
    intro j
    simpa using ch j
  · -- antiperiodic, high
    obtain ⟨E0, hE0, low⟩ := hb.low rfl
    have q0 : P 0 ≤ lam 0 := by
      by_contra hc
      push Not at hc
      have := s0 _ hc
      linarith
    obtain ⟨p, q, hpq⟩ := h.pair (a := E0) (hE0.trans_le q0) l01 (fun E hE => b0 E hE.2) (hs.between 0) low e0 o0
    obtain ⟨e1, e2, e3⟩ := hP.step hpq (k := 0) (fun i hi => by omega) hE0
    rw [zero_add] at e2 e3
    have ch := hP.chain h (κ := fun n => lam (n + 1)) (fun a b hab => hs.mono (by omega)) (fun j => by simpa using hs.odd j) (fun j => by have := hs.even (j + 1); rw [show 2 * (j + 1) = 2 * j + 1 + 1 by ring] at this; simpa using this)
      (fun n => hs.between (n + 1)) (k := 2) (fun i hi => by
        have : P i ≤ P 1 := hP.mono (by omega)
        rw [e2] at this
        exact this.trans_lt hpq.right) e3
    intro j
    have c := ch j
    rw [show 2 + 2 * j = 2 * j + 2 by ring] at c
    cases j with
    | zero => exact ⟨q0, by rw [mul_zero, zero_add, e2]; exact hpq.le2, by rw [mul_zero, zero_add, e2]; exact hpq.right, c.1⟩
    | succ j =>
      have c' := ch j
      rw [show 2 + 2 * j = 2 * (j + 1) by ring] at c'
      exact ⟨c'.2.1, c'.2.2.1, c'.2.2.2, c.1⟩

end Verif.Cross
