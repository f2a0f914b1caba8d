import Verif.Lemmas.CountNear
import Verif.Spec.EigenNr
import Verif.Lemmas.CountSearch
import Verif.Props.AngleConverge

/-!
# The computed matching angle counts correctly
-/
namespace Verif.Solver
open Verif Verif.Prufer Verif.YT Verif.CalcT Verif.Mesh Verif.Propag Verif.Formulas Verif.Legendre Verif.Spec Verif.Search
open Real (pi)

/-- The energies at which the computed angle can be trusted. -/
def GoodAt (C H ε : ℝ) (k : ℕ) (vs : Sec ℝ → ℕ → ℝ) (secs : List (Sec ℝ)) (me : ℝ → ℝ × ℝ × ℝ) (Emin Emax E : ℝ) : Prop :=
  AngleFit C H ε k vs secs E ∧ (Halving Emin Emax E → ∀ j : ℤ, (me E).2.2 ≠ j * pi)

theorem counting_instance (M : ℝ) (hM : 1 ≤ M) : ∃ C C' C0 : ℝ, 1 ≤ C ∧ 1 ≤ C' ∧ 1 ≤ C0 ∧ C' ≤ C ∧ C0 ≤ C ∧ ∀ (eps ε : ℝ) (eta : ℕ → ℝ → ℕ → ℝ) (vs : Sec ℝ → ℕ → ℝ) (W : Sec ℝ → ℝ → ℝ)
    (dmin dmax H : ℝ) (r : BuildResult ℝ) (useH : Bool) (left right : Y ℝ) (me : ℝ → ℝ × ℝ × ℝ),
    FitMesh eps M H W dmin dmax r.sectors → AccurateTo ε W r.sectors eta vs → dmax - dmin ≤ M → 1 / M ≤ dmax - dmin →
    r.matchIndex + 1 < r.sectors.length → (left.y ≠ 0 ∨ left.dy ≠ 0) → (right.y ≠ 0 ∨ right.dy ≠ 0) → C * (H ^ ord useH + ε) ≤ 1 →
    (∀ E, (constructOf eps eta vs dmin dmax r).matchingError pi E left right useH = .ok (me E)) →
    ∃ D y dy z dz, ExactCount C' M W dmin dmax r.sectors (left.y, left.dy) (right.y, right.dy) D y dy z dz ∧
      ∀ Emin Emax g, Emin < Emax → -M + 1 ≤ Emin → Emax ≤ M - 1 →
        EigenGap W r.sectors dmin dmax (left.y, left.dy) (right.y, right.dy) (Emin - C0 * (H ^ ord useH + ε)) (Emax + C0 * (H ^ ord useH + ε)) g →
        8 * (C0 * (H ^ ord useH + ε)) + (Emax - Emin) / 2 ^ 31 < g →
        Counting (fun E => (me E).2.2 / pi) (fun E => D E / pi) (GoodAt C H ε (ord useH) vs r.sectors me Emin Emax) Emin Emax (C0 * (H ^ ord useH + ε)) g := by
  obtain ⟨C0, C', hC0, hC', k0⟩ := count_near M hM
  obtain ⟨Ci, hCi, ki⟩ := C90_index M hM
  have hp := Real.pi_gt_three
  have hp0 := Real.pi_pos
  have hC0i := one_le_mul_of_one_le_of_one_le hC0 hCi
  have hC'0 := one_le_mul_of_one_le_of_one_le hC' hC0
  set C := 32 * (C' * (C0 * Ci)) with hCdef
  have d1 : C' ≤ C := by
    have := le_mul_of_one_le_right (by linarith : 0 ≤ C') hC0i
    linarith
  have d2 : C0 * Ci ≤ C' * (C0 * Ci) := le_mul_of_one_le_left (by linarith) hC'
  have d3 : C0 ≤ C0 * Ci := le_mul_of_one_le_right (by linarith) hCi
  have d4 : Ci ≤ C0 * Ci := le_mul_of_one_le_left (by linarith) hC0
  have d5 : C' * C0 ≤ C' * (C0 * Ci) := mul_le_mul_of_nonneg_left d3 (by linarith)
  refine ⟨C, C', C0, by linarith, hC', hC0, d1, by linarith, ?_⟩
  intro eps ε eta vs W dmin dmax H r useH left right me hf hacc hd hd' hmi hl hr hκ hme
  have hε0 := accurate_nonneg hacc hf.mesh.length_pos
  have hH0 := (fit_pos hf).le
  set κ := H ^ ord useH + ε with hκd
  have κ0 : 0 ≤ κ := add_nonneg (pow_nonneg hH0 _) hε0
  set δ := C0 * κ with hδ
  have δ0 : 0 ≤ δ := mul_nonneg (by linarith) κ0
  have s1 : 32 * (Ci * δ) ≤ 1 := by
    have : 32 * (Ci * δ) = 32 * (C0 * Ci) * κ := by rw [hδ]; ring
    rw [this]
    exact (mul_le_mul_of_nonneg_right (by linarith) κ0).trans hκ
  have s2 : Ci * κ ≤ Ci * δ := mul_le_mul_of_nonneg_left (le_mul_of_one_le_left κ0 hC0) (by linarith)
  have s3 : δ ≤ Ci * δ := le_mul_of_one_le_left δ0 hCi
  have s4 : 32 * (C' * δ) ≤ 1 := by
    have : 32 * (C' * δ) = 32 * (C' * C0) * κ := by rw [hδ]; ring
    rw [this]
    exact (mul_le_mul_of_nonneg_right (by linarith) κ0).trans hκ
  obtain ⟨D, y, dy, z, dz, hD, kD⟩ := k0 eps ε eta vs W dmin dmax H r useH left right hf hacc hd hd' hmi hl hr (by
    rw [← hκd, ← hδ]; linarith)
  refine ⟨D, y, dy, z, dz, hD, ?_⟩
  intro Emin Emax g hlt hEmin hEmax hgap hres
  have ok : ∀ x, Emin - δ ≤ x → x ≤ Emax + δ → |x| ≤ M := fun x h1 h2 => abs_le.mpr ⟨by linarith, by linarith⟩
  have ok1 : ∀ x, Emin ≤ x → x ≤ Emax → |x| + 1 ≤ M := fun x h1 h2 => by
    have : |x| ≤ M - 1 := abs_le.mpr ⟨by linarith, by linarith⟩
    linarith
  have hnear : ∀ x, GoodAt C H ε (ord useH) vs r.sectors me Emin Emax x → Emin ≤ x → x ≤ Emax → ∀ (lam : ℝ) (k : ℤ), |lam| ≤ M → D lam = k * pi → |x - lam| ≤ δ →
      |(me x).2.2 - k * pi| ≤ 3 / 4 := by
    intro x hg hx1 hx2 lam k hlam hk hxl
    obtain ⟨n, rfl, y, dy, hy, hne, el, er, hfin, hn⟩ := (hD.index lam hlam k).mp hk
    have hxM := ok x (by linarith) (by linarith)
    have okm := fit_okMesh hf hxM
    have hs : Ci * |x - lam| ≤ Ci * δ := mul_le_mul_of_nonneg_left hxl (by linarith)
    obtain ⟨-, err, e1, e2⟩ := ki eps ε eta vs W dmin dmax H lam x r useH left right y dy hf hacc hd hlam hxM hmi hl hr hy hne el er
      (hg.1.mono (by linarith) hH0 hε0 okm.pos) (by linarith)
    rw [hme] at e1
    cases e1
    rw [hn] at e2
    have : Ci * (H ^ ord useH + ε + |x - lam|) = Ci * κ + Ci * |x - lam| := by rw [hκd]; ring
    have e2 : |(me x).2.2 - n * pi| ≤ Ci * (H ^ ord useH + ε + |x - lam|) := e2
    rw [this] at e2
    push_cast
    linarith
  have hfar : ∀ x, GoodAt C H ε (ord useH) vs r.sectors me Emin Emax x → Emin ≤ x → x ≤ Emax →
      (∀ (lam : ℝ) (k : ℤ), |lam| ≤ M → D lam = k * pi → δ < |x - lam|) → ∀ k : ℤ, (D x < k * pi → (me x).2.2 < k * pi) ∧ (k * pi < D x → k * pi < (me x).2.2) := by
    intro x hg hx1 hx2 hfar k
    have okm := fit_okMesh hf (ok x (by linarith) (by linarith))
    have ha := hg.1.mono (show C0 ≤ C by linarith) hH0 hε0 okm.pos
    obtain ⟨err, e1, e2⟩ := kD x (ok1 x hx1 hx2) ha.fine ha.accurate (fun s hs hv => by
      rcases ha.clear s hs with h | h <;> linarith) hfar
    rw [hme] at e1
    cases e1
    exact e2 k
  have hpk : ∀ {u v : ℝ}, u / pi < v ↔ u < v * pi := fun {u v} => div_lt_iff₀ hp0
  have hpk' : ∀ {u v : ℝ}, v < u / pi ↔ v * pi < u := fun {u v} => lt_div_iff₀ hp0
  have hple : ∀ {u v : ℝ}, u / pi ≤ v ↔ u ≤ v * pi := fun {u v} => div_le_iff₀ hp0
  have hple' : ∀ {u v : ℝ}, v ≤ u / pi ↔ v * pi ≤ u := fun {u v} => le_div_iff₀ hp0
  have w0 : 0 < (Emax - Emin) / 2 ^ 31 := div_pos (by linarith) (by positivity)
  have int_lt : ∀ {j k : ℤ}, (j : ℝ) * pi < k * pi → (j : ℝ) + 1 ≤ k := by
    intro j k h
    have := lt_of_mul_lt_mul_right h hp0.le
    have : j < k := by exact_mod_cast this
    exact_mod_cast this
  refine ⟨hlt, δ0, by linarith, by linarith, ?_, ?_, ?_, ?_, ?_, ?_, ?_⟩
  · intro x y hx hxy hy
    exact div_lt_div_of_pos_right (hD.mono hC' (ok x hx (by linarith)) (ok y (by linarith) hy) hxy) hp0
  · intro k x y hx hy hxy h1 h2
    rw [hple] at h1
    rw [hple'] at h2
    have hkp : (k : ℝ) * pi ≤ (k + 1) * pi := mul_le_mul_of_nonneg_right (by linarith) hp0.le
    obtain ⟨lam, l1, l2, l3, l4⟩ := hD.ivt hC' (ok x hx (by linarith)) (ok y (by linarith) hy) hxy h1 (hkp.trans h2)
    obtain ⟨mu, m1, m2, m3, m4⟩ := hD.ivt (t := ((k + 1 : ℤ) : ℝ) * pi) hC' (ok x hx (by linarith)) (ok y (by linarith) hy) hxy (by push_cast; linarith) (by push_cast; exact h2)
    obtain ⟨n, hn, hn'⟩ := (hD.index lam l3 k).mp l4
    obtain ⟨m, hm, hm'⟩ := (hD.index mu m3 (k + 1)).mp m4
    have := hgap n m lam mu hn' hm' (by omega) (by linarith) (by linarith) (by linarith) (by linarith)
    linarith
  · intro x hg hx1 hx2 k h
    rw [hpk] at h ⊢
    by_cases hf : ∀ (lam : ℝ) (k : ℤ), |lam| ≤ M → D lam = k * pi → δ < |x - lam|
    · refine (hfar x hg hx1 hx2 hf k).1 ?_
      rcases δ0.eq_or_lt with e | e
      · rwa [← e, add_zero] at h
      · exact (hD.mono hC' (ok x (by linarith) (by linarith)) (ok (x + δ) (by linarith) (by linarith)) (by linarith)).trans h
    · push Not at hf
      obtain ⟨lam, j, hlam, hj, hxl⟩ := hf
      have h1 := hnear x hg hx1 hx2 lam j hlam hj hxl
      have h2 : D lam ≤ D (x + δ) := by
        by_contra hc
        push Not at hc
        have := (hD.mono' hC' (ok (x + δ) (by linarith) (by linarith)) hlam).mp hc
        rw [abs_le] at hxl
        linarith
      rw [hj] at h2
      have h3 := int_lt (h2.trans_lt h)
      have h4 := mul_le_mul_of_nonneg_right h3 hp0.le
      rw [abs_le] at h1
      linarith
  · intro x hg hx1 hx2 k h
    rw [hpk'] at h ⊢
    by_cases hf : ∀ (lam : ℝ) (k : ℤ), |lam| ≤ M → D lam = k * pi → δ < |x - lam|
    · refine (hfar x hg hx1 hx2 hf k).2 ?_
      rcases δ0.eq_or_lt with e | e
      · rwa [← e, sub_zero] at h
      · exact h.trans (hD.mono hC' (ok (x - δ) (by linarith) (by linarith)) (ok x (by linarith) (by linarith)) (by linarith))
    · push Not at hf
      obtain ⟨lam, j, hlam, hj, hxl⟩ := hf
      have h1 := hnear x hg hx1 hx2 lam j hlam hj hxl
      have h2 : D (x - δ) ≤ D lam := by
        by_contra hc
        push Not at hc
        have := (hD.mono' hC' hlam (ok (x - δ) (by linarith) (by linarith))).mp hc
        rw [abs_le] at hxl
        linarith
      rw [hj] at h2
      have h3 := int_lt (h.trans_le h2)
      have h4 := mul_le_mul_of_nonneg_right h3 hp0.le
      rw [abs_le] at h1
      linarith
  · intro x hg hx1 hx2 k h1 h2
    rw [hple] at h1
    rw [hple'] at h2
    obtain ⟨lam, l1, l2, l3, l4⟩ := hD.ivt hC' (ok (x - δ) (by linarith) (by linarith)) (ok (x + δ) (by linarith) (by linarith)) (by linarith) h1 h2
    have h3 := hnear x hg hx1 hx2 lam k l3 l4 (abs_le.mpr ⟨by linarith, by linarith⟩)
    have e : (me x).2.2 / pi - k = ((me x).2.2 - k * pi) / pi := by field_simp
    show |(me x).2.2 / pi - k| ≤ 1 / 4
    rw [e, abs_div, abs_of_pos hp0, div_le_iff₀ hp0]
    linarith
  · show (Emax - Emin) / 2 ^ 31 < g - 2 * δ
    linarith
  · intro x hg j m hj hm hx k h
    refine hg.2 ⟨j, m, hj, hm, hx⟩ k ?_
    rw [div_eq_iff hp0.ne'] at h
    exact h

end Verif.Solver
