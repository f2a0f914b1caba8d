import Verif.Lemmas.FlMaj
import Verif.Lemmas.SectorNear
import Verif.Spec.FinitePrecision

/-!
# Rounding errors of the Legendre coefficients
-/
namespace Verif.Fp
open Verif.Mesh Verif.Legendre Verif.Spec Verif.Solver

variable {u mu : ℝ} {fl : ℝ → ℝ}

theorem node16_check : (List.range 16).all (fun j => decide (|node 16 j| ≤ 99 / 100)) = true := by decide +kernel

theorem node16_le {j : ℕ} (hj : j < 16) : |(node 16 j : ℝ)| ≤ 99 / 100 := by
  have := of_decide_eq_true (List.all_eq_true.mp node16_check j (List.mem_range.mpr hj))
  have h : ((|node 16 j| : ℚ) : ℝ) ≤ ((99 / 100 : ℚ) : ℝ) := Rat.cast_le.mpr this
  rw [Rat.cast_abs] at h
  push_cast at h
  exact h

theorem weight16_le {i j : ℕ} (hi : i < 16) (hj : j < 16) : |(weight 16 i j : ℝ)| ≤ 6 / 2 ^ i := by
  have h1 := weight_sum_le hi
  have h2 : |(weight 16 i j : ℝ)| ≤ ∑ j ∈ Finset.range 16, |(weight 16 i j : ℝ)| :=
    Finset.single_le_sum (f := fun j => |(weight 16 i j : ℝ)|) (fun _ _ => abs_nonneg _) (Finset.mem_range.mpr hj)
  rw [le_div_iff₀ (by positivity)]
  have h3 : (0 : ℝ) < 2 ^ i := by positivity
  have := mul_le_mul_of_nonneg_left h2 h3.le
  linarith

/-- a rational literal -/
theorem Maj.lit (hr : Rounding u mu fl) (hu : 0 ≤ u) {q : ℚ} {m : ℝ} (hq : |(q : ℝ)| ≤ m) (hm : mu ≤ m) : Maj u m (CCmp.lit q : Fl fl).val (q : ℝ) := by
  have h := (Maj.exact hq).round hr hu le_rfl hm
  rwa [zero_add] at h

/-- half the width -/
theorem halfWidth_maj (hr : Rounding u mu fl) (hu : 0 ≤ u) (hu' : u ≤ 1 / 4) (hmu1 : mu ≤ 1) {a b : Fl fl} (hab : a.val < b.val) (hm : mu ≤ (b.val - a.val) / 2) :
    Maj (4 * u) ((b.val - a.val) / 2) (halfWidth a b).val ((b.val - a.val) / 2) := by
  have h0 : 0 < b.val - a.val := by linarith
  have h1 : Maj u (b.val - a.val) (b - a).val (b.val - a.val) := by
    have := (Maj.exact (x := b.val - a.val) (m := b.val - a.val) (by rw [abs_of_pos h0])).round hr hu le_rfl (by linarith)
    rwa [zero_add] at this
  have h2 := Maj.divLit (n := 2) hr hu hu' h1 hu (by norm_num) hmu1 (by exact_mod_cast hm)
  have e : u + 3 * u = 4 * u := by ring
  rw [e] at h2
  exact_mod_cast h2

/-- the points of evaluation -/
theorem samplePoint_maj (hr : Rounding u mu fl) (hu : 0 ≤ u) (hu' : u ≤ 1 / 4) (hmu1 : mu ≤ 1) {a b : Fl fl} (hab : a.val < b.val) (hm : mu ≤ (b.val - a.val) / 2) {X : ℝ}
    (hX : |a.val| + |b.val| ≤ X) {j : ℕ} (hj : j < 16) :
    Maj (7 * u) X (samplePoint 16 a b j).val (samplePoint 16 a.val b.val j) := by
  have hw := halfWidth_maj hr hu hu' hmu1 hab hm
  have h0 : 0 < b.val - a.val := by linarith
  have hd : b.val - a.val ≤ |a.val| + |b.val| := (le_abs_self _).trans (by rw [add_comm |a.val|]; exact abs_sub _ _)
  set Y := |a.val| + |b.val| with hY
  have s1 : Maj u Y (a + b).val (a.val + b.val) := by
    have := (Maj.exact (x := a.val + b.val) (m := Y) (abs_add_le _ _)).round hr hu le_rfl (by linarith)
    rwa [zero_add] at this
  have s2 := Maj.divLit (n := 2) hr hu hu' s1 hu (by norm_num) hmu1 (by push_cast; linarith)
  have n1 := Maj.lit hr hu (q := node 16 j) (m := 1) ((node16_le hj).trans (by norm_num)) hmu1
  have n2 := n1.mul hr hu hw hu (by linarith) (by rw [one_mul]; exact hm)
  have n3 := n2.mono (t := 6 * u) (by linarith) (by linarith) (le_refl (1 * ((b.val - a.val) / 2)))
  have s3 := s2.mono (t := 6 * u) (by linarith) (by linarith) le_rfl
  have t := s3.add hr hu n3 (by linarith) (by push_cast; linarith)
  have t2 := t.mono (t := 7 * u) (p := X) (by linarith) (by linarith) (by push_cast; linarith)
  have e : samplePoint 16 a.val b.val j = (a.val + b.val) / ((2 : ℕ) : ℝ) + (node 16 j : ℝ) * ((b.val - a.val) / 2) := by
    simp [samplePoint, halfWidth]
  rw [e]
  exact t2

/-- the weighted sum -/
theorem integrate_maj (hr : Rounding u mu fl) (hu : 0 ≤ u) {B t : ℝ} (ht : 0 ≤ t) {i : ℕ} (hi : i < 16) (hmu : mu ≤ 6 / 2 ^ i) (hmu' : mu ≤ 6 / 2 ^ i * B) {fs : ℕ → Fl fl} {fs' : ℕ → ℝ}
    (hf : ∀ j < 16, Maj t B (fs j).val (fs' j)) : Maj (t + 17 * u) (96 / 2 ^ i * B) (integrate 16 fs i).val (integrate 16 fs' i) := by
  have term : ∀ j < 16, Maj (t + 2 * u) (6 / 2 ^ i * B) (CCmp.lit (weight 16 i j) * fs j).val (CCmp.lit (weight 16 i j) * fs' j) := by
    intro j hj
    have := (Maj.lit hr hu (q := weight 16 i j) (weight16_le hi hj) hmu).mul hr hu (hf j hj) hu ht hmu'
    exact this.mono (by linarith) (by linarith) le_rfl
  have B0 : 0 ≤ 6 / 2 ^ i * B := (term 0 (by norm_num)).nonneg
  set D := 6 / 2 ^ i * B with hD
  have loop : ∀ (r j : ℕ) (acc : Fl fl) (acc' : ℝ), j + r ≤ 16 → 1 ≤ j → Maj (t + 2 * u + (j - 1) * u) (j * D) acc.val acc' →
      Maj (t + 2 * u + (j + r - 1) * u) ((j + r) * D) (integrateLoop 16 i fs r j acc).val (integrateLoop 16 i fs' r j acc') := by
    intro r
    induction r with
    | zero => intro j acc acc' _ _ h; simpa [integrateLoop] using h
    | succ r ih =>
      intro j acc acc' hj h1 h
      unfold integrateLoop
      have j1 : (1 : ℝ) ≤ j := by exact_mod_cast h1
      have hju : 0 ≤ ((j : ℝ) - 1) * u := mul_nonneg (by linarith) hu
      have hjD : 0 ≤ (j : ℝ) * D := by positivity
      have := h.add hr hu ((term j (by omega)).mono (t := t + 2 * u + (j - 1) * u) (by linarith) (by linarith) le_rfl) (by linarith) (by linarith)
      have h2 := ih (j + 1) _ _ (by omega) (by omega) (this.mono (t := t + 2 * u + ((j + 1 : ℕ) - 1) * u) (p := (j + 1 : ℕ) * D) (by linarith) (by push_cast; linarith) (by push_cast; linarith))
      refine h2.mono ?_ (by push_cast; linarith) (by push_cast; linarith)
      have : 0 ≤ (((j + 1 : ℕ) : ℝ) + r - 1) * u := mul_nonneg (by push_cast; linarith [Nat.cast_nonneg (α := ℝ) r]) hu
      linarith
  have h := loop 15 1 _ _ (by norm_num) le_rfl ((term 0 (by norm_num)).mono (t := t + 2 * u + ((1 : ℕ) - 1) * u) (p := (1 : ℕ) * D) (by linarith) (by push_cast; linarith) (by push_cast; linarith))
  unfold integrate
  refine h.mono (by push_cast; linarith) (by push_cast; linarith) (le_of_eq ?_)
  rw [hD]; push_cast; ring

/-- the power of the half width -/
theorem hPow_maj (hr : Rounding u mu fl) (hu : 0 ≤ u) {x : Fl fl} {x' t : ℝ} (ht : 0 ≤ t) (h0 : 0 < x') (h1 : x' ≤ 1) (hx : Maj t x' x.val x') {n : ℕ} (hm : mu ≤ x' ^ n) :
    ∀ i ≤ n, Maj (i * (t + u)) (x' ^ i) (hPow x i).val (hPow x' i) := by
  intro i
  induction i with
  | zero => intro _; have := Maj.exact (x := (1 : ℝ)) (m := 1) (by simp); simpa [hPow] using this
  | succ i ih =>
    intro hi
    have := (ih (by omega)).mul hr hu hx (by positivity) ht (by
      rw [← pow_succ]; exact hm.trans (pow_le_pow_of_le_one h0.le h1 hi))
    unfold hPow
    rw [pow_succ]
    refine this.mono (by positivity) (by push_cast; linarith) le_rfl

/-- **The coefficients** in finite precision. -/
theorem coeff_maj (hr : Rounding u mu fl) (hu : 0 ≤ u) (hu' : u ≤ 1 / 300) {a b : Fl fl} (hab : a.val < b.val) (h1 : b.val - a.val ≤ 1) (hm : mu ≤ ((b.val - a.val) / 2) ^ 15) {B t : ℝ} (ht : 0 ≤ t) (hB : 1 ≤ B)
    {f : Fl fl → Fl fl} {W : ℝ → ℝ} (hf : ∀ j < 16, Maj t B (f (samplePoint 16 a b j)).val (W (samplePoint 16 a.val b.val j))) {i : ℕ} (hi : i < 16) :
    Maj (t + 168 * u) (96 * B / (b.val - a.val) ^ i) (getCoefficients 16 f a b i).val (getCoefficients 16 W a.val b.val i) := by
  set h := b.val - a.val with hh
  have h0 : 0 < h := by linarith
  have hp2 : ((2 : ℝ) ^ i) ≤ 2 ^ 15 := pow_le_pow_right₀ (by norm_num) (by omega)
  have hm15 : mu ≤ 1 / 2 ^ 15 := by
    refine hm.trans ?_
    rw [div_pow]
    have : h ^ 15 ≤ 1 := pow_le_one₀ h0.le h1
    exact div_le_div_of_nonneg_right this (by positivity)
  have hm6 : mu ≤ 6 / 2 ^ i := by
    refine hm15.trans ?_
    rw [div_le_div_iff₀ (by positivity) (by positivity)]
    have : (0 : ℝ) < 2 ^ 15 := by positivity
    linarith
  have hmB : mu ≤ 6 / 2 ^ i * B := hm6.trans (le_mul_of_one_le_right (by positivity) hB)
  have hmh : mu ≤ h / 2 := hm.trans (pow_le_of_le_one (by linarith) (by linarith) (by norm_num))
  have hmu1 : mu ≤ 1 := by linarith
  have hw := halfWidth_maj hr hu (by linarith) hmu1 hab hmh
  rw [← hh] at hw
  have eh : halfWidth a.val b.val = h / 2 := by simp [halfWidth, hh]
  have num := integrate_maj hr hu ht hi hm6 hmB hf
  have den := hPow_maj hr hu (t := 4 * u) (by linarith) (by linarith) (by linarith) hw hm i (by omega)
  have i15 : (i : ℝ) ≤ 15 := by exact_mod_cast Nat.le_of_lt_succ hi
  have den' := den.mono (t := 75 * u) (by positivity) (by
    have := mul_le_mul_of_nonneg_right i15 (show 0 ≤ 4 * u + u by linarith)
    linarith) le_rfl
  rw [hPow_eq] at den'
  have eq : 96 / 2 ^ i * B / (h / 2) ^ i = 96 * B / h ^ i := by rw [div_pow]; field_simp
  have hhi : h ^ i ≤ 1 := pow_le_one₀ h0.le h1
  have := num.div hr hu den' (by linarith) (by linarith) (by positivity) (by linarith) (by
    rw [eq]
    have : (96 : ℝ) * B ≤ 96 * B / h ^ i := le_div_self (by linarith) (by positivity) hhi
    linarith)
  rw [eq] at this
  have e2 : getCoefficients 16 W a.val b.val i = integrate 16 (fun j => W (samplePoint 16 a.val b.val j)) i / (h / 2) ^ i := by
    unfold getCoefficients
    rw [hPow_eq, eh]; rfl
  rw [e2]
  exact this.mono (by linarith) (by linarith) le_rfl

/-- a smooth potential is Lipschitz -/
theorem smooth_lip {M : ℝ} {W : ℝ → ℝ} {a b : ℝ} (hW : SmoothOn M W a b) {x y : ℝ} (hx : x ∈ Set.Icc a b) (hy : y ∈ Set.Icc a b) : |W x - W y| ≤ M * |x - y| := by
  obtain ⟨D, d0, d1, d2⟩ := hW
  have := Convex.norm_image_sub_le_of_norm_hasDerivWithin_le (f := D 0) (f' := D 1) (s := Set.Icc a b) (C := M) (x := y) (y := x)
    (fun z hz => d1 0 (by norm_num) z hz) (fun z hz => d2 1 (by norm_num) z hz) (convex_Icc _ _) hy hx
  rw [d0 x hx, d0 y hy] at this
  exact this

theorem exp_sub_one_le {x c : ℝ} (h0 : 0 ≤ x) (h1 : x ≤ c) (hc : c ≤ 1) : Real.exp x - 1 ≤ (1 + c) * x := by
  have h2 := Real.abs_exp_sub_one_sub_id_le (x := x) (by rw [abs_of_nonneg h0]; linarith)
  have h3 := (le_abs_self _).trans h2
  have h4 : x ^ 2 ≤ c * x := by rw [sq]; exact mul_le_mul_of_nonneg_right h1 h0
  linarith

set_option maxHeartbeats 800000 in
/-- The computed coefficients of a sector. -/
theorem coeff_fl (hr : Rounding u mu fl) (hu : 0 ≤ u) (hu' : u ≤ 1 / 1000) {M δ X H : ℝ} (hM : 1 ≤ M) (hδ0 : 0 ≤ δ) {s : Sec (Fl fl)} (hlt : s.min.val < s.max.val) (hn : s.max.val - s.min.val ≤ H) (hH : H ≤ 1)
    (hX : |s.min.val| + |s.max.val| ≤ X) (hfine : 1600 * u * X ≤ s.max.val - s.min.val) (hm : mu ≤ ((s.max.val - s.min.val) / 2) ^ 15) {V : Fl fl → Fl fl} {W : ℝ → ℝ} (hW : SmoothOn M W s.min.val s.max.val)
    (hV : ∀ x : Fl fl, s.min.val ≤ x.val → x.val ≤ s.max.val → |(V x).val - W x.val| ≤ δ) :
    CoeffWithin (16 * M / 10 ^ 14 + 37 * M * H ^ 16 + (150 * δ + 20000 * M * u * (1 + X))) (oriented W (realSec s)) s.min.val s.max.val (fun k => (sectorVsGen V s k).val) := by
  set h := s.max.val - s.min.val with hh
  have h0 : 0 < h := by linarith
  have h1 : h ≤ 1 := hn.trans hH
  have X0 : 0 ≤ X := le_trans (by positivity) hX
  have hmh : mu ≤ h / 2 := hm.trans (pow_le_of_le_one (by linarith) (by linarith) (by norm_num))
  set e0 := δ + 8 * M * u * X with he0
  have MuX : 0 ≤ M * u * X := by positivity
  have e00 : 0 ≤ e0 := by rw [he0]; linarith
  set t := Real.log (1 + e0 / M) with ht
  have q0 : 0 ≤ e0 / M := by positivity
  have t0 : 0 ≤ t := Real.log_nonneg (by linarith)
  have et : Real.exp t = 1 + e0 / M := Real.exp_log (by linarith)
  have hexp7 : Real.exp (7 * u) - 1 ≤ 8 * u := by
    have := exp_sub_one_le (x := 7 * u) (c := 1 / 10) (by linarith) (by linarith) (by norm_num)
    linarith
  have samp : ∀ j < 16, Maj t M (V (samplePoint 16 s.min s.max j)).val (W (samplePoint 16 s.min.val s.max.val j)) := by
    intro j hj
    have h2 := (samplePoint_maj hr hu (by linarith) (by linarith) hlt hmh hX hj).2
    set x := (samplePoint 16 s.min s.max j).val with hx
    set x' := samplePoint 16 s.min.val s.max.val j with hx'
    have h3 : |x - x'| ≤ 8 * u * X := h2.trans (mul_le_mul_of_nonneg_right hexp7 X0)
    have n1 := node16_le hj
    have e : x' = (s.min.val + s.max.val) / 2 + (node 16 j : ℝ) * (h / 2) := by
      rw [hx']; simp [samplePoint, halfWidth, hh]
    have n2 : |(node 16 j : ℝ) * (h / 2)| ≤ 99 / 100 * (h / 2) := by
      rw [abs_mul, abs_of_pos (by linarith : 0 < h / 2)]
      exact mul_le_mul_of_nonneg_right n1 (by linarith)
    have n3 := abs_le.mp n2
    have n4 := abs_le.mp h3
    have in' : x' ∈ Set.Icc s.min.val s.max.val := ⟨by rw [e]; linarith, by rw [e]; linarith⟩
    have inx : x ∈ Set.Icc s.min.val s.max.val := ⟨by linarith, by linarith⟩
    refine ⟨hW.bound in', ?_⟩
    rw [et, add_sub_cancel_left, div_mul_cancel₀ _ (by linarith : M ≠ 0)]
    have l1 := hV (samplePoint 16 s.min s.max j) inx.1 inx.2
    have l2 := smooth_lip hW inx in'
    have l3 : M * |x - x'| ≤ M * (8 * u * X) := mul_le_mul_of_nonneg_left h3 (by linarith)
    have e2 : (V (samplePoint 16 s.min s.max j)).val - W x' = ((V (samplePoint 16 s.min s.max j)).val - W x) + (W x - W x') := by ring
    rw [e2]; refine (abs_add_le _ _).trans ?_
    rw [he0]; linarith
  have main : ∀ k < 16, Maj (t + 169 * u) (96 * M / h ^ k) (sectorVsGen V s k).val (sectorVs W (realSec s) k) := by
    intro k hk
    have c := coeff_maj hr hu (by linarith) hlt h1 hm t0 hM samp hk
    rw [← hh] at c
    have c0 : 0 ≤ t + 168 * u := by linarith
    have cc := c.mono (t := t + 169 * u) c0 (by linarith) le_rfl
    unfold sectorVsGen sectorVs
    have hk' : k < matsliseN := hk
    rw [if_pos hk', if_pos hk']
    have ed : (realSec s).dir = s.dir := rfl
    rw [ed]
    by_cases hd : s.dir = .backward
    · simp only [hd, if_true]
      split
      · have o : Maj 0 1 ((-1 : Fl fl)).val (-1 : ℝ) := by
          have := Maj.exact (x := (-1 : ℝ)) (m := 1) (by simp)
          exact this
        have hh1 : h ^ k ≤ 1 := pow_le_one₀ h0.le h1
        have hge : (96 : ℝ) * M ≤ 96 * M / h ^ k := le_div_self (by linarith) (by positivity) hh1
        have := c.mul hr hu o c0 le_rfl (by rw [mul_one]; linarith)
        rw [mul_one] at this
        exact this.mono (by linarith) (by linarith) le_rfl
      · exact cc
    · simp only [hd, if_false]
      exact cc
  have ex := coeffWithin_sector (V := W) (by linarith : 0 ≤ M) (s := realSec s) hlt hn hH hW (fun _ _ _ => rfl)
  refine ⟨fun k hk => ?_, fun k hk => ?_⟩
  · have a1 : |sectorVs W (realSec s) k * h ^ k - legendreCoeff (oriented W (realSec s)) s.min.val s.max.val k| ≤ 16 * M / 10 ^ 14 + 37 * M * H ^ 16 := ex.near k hk
    have a2 := (main k hk).2
    have hp : 0 < h ^ k := pow_pos h0 k
    have a3 : |(sectorVsGen V s k).val * h ^ k - sectorVs W (realSec s) k * h ^ k| ≤ (Real.exp (t + 169 * u) - 1) * (96 * M) := by
      rw [← sub_mul, abs_mul, abs_of_pos hp]
      have := mul_le_mul_of_nonneg_right a2 hp.le
      refine this.trans (le_of_eq ?_)
      field_simp
    have x1 : Real.exp (169 * u) ≤ 3 / 2 := exp_le_three_half (by linarith)
    have x2 : Real.exp (169 * u) - 1 ≤ 200 * u := by
      have := exp_sub_one_le (x := 169 * u) (c := 17 / 100) (by linarith) (by linarith) (by norm_num)
      linarith
    have a4 : (Real.exp (t + 169 * u) - 1) * (96 * M) ≤ 150 * δ + 20000 * M * u * (1 + X) := by
      rw [Real.exp_add, et]
      have e3 : ((1 + e0 / M) * Real.exp (169 * u) - 1) * (96 * M) = 96 * (e0 * Real.exp (169 * u)) + 96 * (M * (Real.exp (169 * u) - 1)) := by field_simp; ring
      rw [e3]
      have y1 : e0 * Real.exp (169 * u) ≤ e0 * (3 / 2) := mul_le_mul_of_nonneg_left x1 e00
      have y2 : M * (Real.exp (169 * u) - 1) ≤ M * (200 * u) := mul_le_mul_of_nonneg_left x2 (by linarith)
      have y3 : 0 ≤ M * u := by positivity
      rw [he0] at y1 ⊢
      have e4 : 20000 * M * u * (1 + X) = 20000 * (M * u) + 20000 * (M * u * X) := by ring
      rw [e4]
      linarith
    have e5 : (sectorVsGen V s k).val * h ^ k - legendreCoeff (oriented W (realSec s)) s.min.val s.max.val k = ((sectorVsGen V s k).val * h ^ k - sectorVs W (realSec s) k * h ^ k) +
      (sectorVs W (realSec s) k * h ^ k - legendreCoeff (oriented W (realSec s)) s.min.val s.max.val k) := by ring
    show |(sectorVsGen V s k).val * h ^ k - legendreCoeff (oriented W (realSec s)) s.min.val s.max.val k| ≤ _
    rw [e5]; refine (abs_add_le _ _).trans ?_
    linarith
  · show (sectorVsGen V s k).val = 0
    unfold sectorVsGen
    have hk' : ¬ k < matsliseN := by unfold matsliseN; omega
    rw [if_neg hk']; rfl

end Verif.Fp
