import Verif.Lemmas.EnergySector
import Verif.Lemmas.EigenNear

/-!
# `propagate` at two energies
-/
namespace Verif.Solver
open Verif.Mesh Verif.YT Verif.CalcT Verif.Propag Verif.Formulas Verif.Legendre Verif.Spec

/-- The visited pieces cover at most the domain. -/
theorem sum_pos_le {P : Prob ℝ} {l : List ℕ} {a b : ℝ} (hl : Linked (pos P a) (pos P b) a l b)
    (hmono : ∀ k ∈ l, (a ≤ b → pos P a k ≤ pos P b k) ∧ (b ≤ a → pos P b k ≤ pos P a k)) :
    (l.map fun k => |pos P b k - pos P a k|).sum = |b - a| := by
  have hsum := hl.sum
  rcases le_total a b with hab | hab
  · have : (l.map fun k => |pos P b k - pos P a k|) = l.map fun k => pos P b k - pos P a k :=
      List.map_congr_left (fun k hk => abs_of_nonneg (by linarith [(hmono k hk).1 hab]))
    rw [this, hsum, abs_of_nonneg (by linarith)]
  · have : (l.map fun k => |pos P b k - pos P a k|) = l.map fun k => -(pos P b k - pos P a k) :=
      List.map_congr_left (fun k hk => abs_of_nonpos (by linarith [(hmono k hk).2 hab]))
    have hneg : (l.map fun k => -(pos P b k - pos P a k)).sum = -(l.map fun k => pos P b k - pos P a k).sum := by
      clear hl hmono hsum this
      induction l with
      | nil => simp
      | cons k l ih => simp only [List.map_cons, List.sum_cons, ih]; ring
    rw [this, hneg, hsum, abs_of_nonpos (by linarith)]

theorem sum_affine (l : List ℕ) (f : ℕ → ℝ) (C A σ : ℝ) : (l.map fun k => C * (A * f k + σ)).sum = C * (A * (l.map f).sum + l.length * σ) := by
  induction l with
  | nil => simp
  | cons k l ih => simp only [List.map_cons, List.sum_cons, ih, List.length_cons]; push_cast; ring

/-- **`propagate` between mesh points at two energies.** -/
theorem propagate_energy (M : ℝ) (hM : 1 ≤ M) : ∃ C : ℝ, 1 ≤ C ∧ ∀ (eps σ τ ε : ℝ) (eta : ℕ → ℝ → ℕ → ℝ) (vs : Sec ℝ → ℕ → ℝ) (W : Sec ℝ → ℝ → ℝ) (dmin dmax H E E' pi : ℝ) (r : BuildResult ℝ)
    (useH : Bool) (a b : ℝ) (c : Y ℝ),
    FitMesh eps M H W dmin dmax r.sectors → EtaWithin σ eta → CoeffsWithin τ W r.sectors vs → τ + r.sectors.length * σ ≤ ε → ε ≤ 1 →
    dmax - dmin ≤ M → |E| ≤ M → |E'| ≤ M →
    a ∈ Set.Icc dmin dmax → b ∈ Set.Icc dmin dmax → IsBoundary (bounds r.sectors) a → IsBoundary (bounds r.sectors) b → pe c = 0 →
    ∃ res res', (constructOf eps eta vs dmin dmax r).propagate pi E c a b useH = .ok res ∧ (constructOf eps eta vs dmin dmax r).propagate pi E' c a b useH = .ok res' ∧
      sz (pr res.1) ≤ C * sz (pr c) ∧ sz (pr res'.1) ≤ C * sz (pr c) ∧ sz (pe res.1) ≤ C * sz (pr c) ∧
      sz (pr res'.1 - pr res.1) ≤ C * (|E' - E| + ε) * sz (pr c) ∧
      sz (pr res'.1 - pr res.1 - (E' - E) • pe res.1) ≤ C * ((E' - E) ^ 2 + |E' - E| * (H ^ 16 + ε) + ε) * sz (pr c) := by
  obtain ⟨C, hC, key⟩ := sector_energy M hM
  have hM0 : 0 ≤ M := by linarith
  set Xb := C * (M + 1) with hXb
  have Xb1 : 1 ≤ Xb := by rw [hXb]; nlinarith
  refine ⟨Real.exp Xb * (Xb + C * M * (2 * M + 2) + C * M * (1 + 2 * M * Xb) + Xb ^ 2), ?_, ?_⟩
  · refine one_le_mul_of_one_le_of_one_le (Real.one_le_exp (by linarith)) ?_
    have : 0 ≤ C * M * (2 * M + 2) + C * M * (1 + 2 * M * Xb) + Xb ^ 2 := by positivity
    linarith
  intro eps σ τ ε eta vs W dmin dmax H E E' pi r useH a b c hf he hv hε hε1 hd hE hE' ha hb hba hbb hc0
  set P := constructOf eps eta vs dmin dmax r with hP
  have hPm : P.mesh = r.sectors := construct_mesh _ _ _ _ _ _
  have hPmin : P.dmin = dmin := rfl
  have hPmax : P.dmax = dmax := rfl
  have hm : IsMesh P.mesh P.dmin P.dmax := by rw [hPm]; exact hf.mesh
  obtain ⟨v0M, hsecs⟩ := construct_secs eps eta vs dmin dmax r
  rw [← hP] at hsecs
  have hA' : domainContains P.dmin P.dmax a = true := by rw [hPmin, hPmax]; simpa [domainContains] using ha
  have hB' : domainContains P.dmin P.dmax b = true := by rw [hPmin, hPmax]; simpa [domainContains] using hb
  obtain ⟨i, j, hi, hj, hia, hjb, hup, hdown, heq⟩ := propagate_closed P hm pi a b useH hA' hB'
  simp only [ccmp_le, ccmp_lt, decide_eq_true_eq, decide_eq_false_iff_not] at hup hdown
  obtain ⟨hlink, hin⟩ := walk_linked hm hi hj hia hjb hup hdown
  refine ⟨_, _, heq E c, heq E' c, ?_⟩
  rw [fold_fst, fold_fst]
  have hH0 : 0 < H := fit_pos hf
  have hH1 := hf.small
  have hσ0 := he.nonneg
  have hN0 : 0 < r.sectors.length := hf.mesh.length_pos
  have hτ0 : 0 ≤ τ := (hv _ (List.getElem_mem hN0)).nonneg
  have hN1 : (1 : ℝ) ≤ r.sectors.length := by exact_mod_cast hN0
  have hσN : σ ≤ r.sectors.length * σ := le_mul_of_one_le_left hσ0 hN1
  have hε0 : 0 ≤ ε := by linarith
  have hσ1 : σ ≤ 1 := by linarith
  have hτ1 : τ ≤ 1 := by linarith
  have bd : ∀ {x : ℝ}, IsBoundary (bounds r.sectors) x → ∀ s ∈ r.sectors, x ≤ s.min ∨ s.max ≤ x := by
    intro x hx s hs
    obtain ⟨s', hs', hx'⟩ := mesh_isBoundary hx
    obtain ⟨k, hk, rfl⟩ := List.getElem_of_mem hs
    obtain ⟨m, hm', rfl⟩ := List.getElem_of_mem hs'
    have l1 : k < P.secs.length := by rw [hsecs, List.length_map]; exact hk
    have l2 : m < P.secs.length := by rw [hsecs, List.length_map]; exact hm'
    have e1 : (P.secs[k]).toSec = r.sectors[k] := by simp only [hsecs, List.getElem_map]; rfl
    have e2 : (P.secs[m]).toSec = r.sectors[m] := by simp only [hsecs, List.getElem_map]; rfl
    have := mesh_point hm l2 l1 (x := x) (by rw [e2]; exact hx')
    rwa [e1] at this
  set δ := |E' - E| with hδ
  have δ0 : 0 ≤ δ := abs_nonneg _
  have sec : ∀ k ∈ visited i j, ((a ≤ b → pos P a k ≤ pos P b k) ∧ (b ≤ a → pos P b k ≤ pos P a k)) ∧
      EStep (fun c => P.stepY E useH a b c k) (fun c => P.stepY E' useH a b c k) (E' - E) (C * (1 * |pos P b k - pos P a k| + σ))
        (C * (((E' - E) ^ 2 + δ * (H ^ 16 + τ)) * |pos P b k - pos P a k| + σ)) := by
    intro k hk
    obtain ⟨hk1, -⟩ := hin k hk
    have hkr : k < r.sectors.length := by rw [hsecs, List.length_map] at hk1; exact hk1
    have hsk : P.secs[k] = sectorOf eps eta (vs (r.sectors[k])) v0M (r.sectors[k]) := by
      simp only [hsecs, List.getElem_map]
    have hs : r.sectors[k] ∈ r.sectors := List.getElem_mem hkr
    set s := r.sectors[k]
    have hw := hf.wide s hs
    have hn := hf.narrow s hs
    have hh0 : 0 ≤ s.max - s.min := by have := hf.eps_nonneg; linarith
    have p1 : pos P a k = cl s.min s.max a := by rw [pos_eq P a hk1, hsk]; rfl
    have p2 : pos P b k = cl s.min s.max b := by rw [pos_eq P b hk1, hsk]; rfl
    have st := key eps σ τ eta (vs s) (W s) v0M E E' s useH a b he hσ1 hτ1 hf.eps_nonneg hw (hn.trans hH1) (hf.smooth s hs) (hv s hs) hE hE' (hf.directed s hs)
      (bd hba s hs) (bd hbb s hs)
    have e : ∀ F c, P.stepY F useH a b c k = ((sectorOf eps eta (vs s) v0M s).propagate F useH c a b).1 := by
      intro F c
      unfold Prob.stepY
      rw [List.getElem?_eq_getElem hk1]
      dsimp only
      rw [hsk]
    refine ⟨by rw [p1, p2]; exact ⟨cl_mono, cl_mono⟩, ?_⟩
    simp only [e, p1, p2, one_mul]
    obtain ⟨s1, s2, s3, s4⟩ := st
    refine ⟨s1, by positivity, s3.mono le_rfl ?_, s4⟩
    have i1 := pow_le_pow_left₀ hh0 hn 16
    have i2 : (E' - E) ^ 2 + |E' - E| * ((s.max - s.min) ^ 16 + τ) ≤ (E' - E) ^ 2 + δ * (H ^ 16 + τ) := by
      have := mul_le_mul_of_nonneg_left (add_le_add i1 (le_refl τ)) δ0
      linarith
    have i3 := mul_le_mul_of_nonneg_right i2 (abs_nonneg (cl s.min s.max b - cl s.min s.max a))
    exact mul_le_mul_of_nonneg_left (by linarith) (by linarith)
  have h0 : EInv (E' - E) (sz (pr c)) 1 0 0 c c := by
    refine ⟨sz_nonneg _, le_rfl, le_rfl, le_rfl, by simp, by simp, ?_, ?_, ?_⟩ <;> simp [hc0, sz]
  have inv := h0.fold (visited i j) (fun k hk => (sec k hk).2)
  have hX := sum_pos_le hlink (fun k hk => (sec k hk).1)
  have hX' : |b - a| ≤ M := by rw [abs_le]; constructor <;> linarith [ha.1, ha.2, hb.1, hb.2]
  have hlen : ((visited i j).length : ℝ) * σ ≤ ε := by
    have hiN : i < r.sectors.length := by rw [hsecs, List.length_map] at hi; exact hi
    have hjN : j < r.sectors.length := by rw [hsecs, List.length_map] at hj; exact hj
    have h2 : ((visited i j).length : ℝ) * σ ≤ r.sectors.length * σ :=
      mul_le_mul_of_nonneg_right (by exact_mod_cast visited_length hiN hjN) hσ0
    linarith
  rw [sum_affine, sum_affine, hX] at inv
  set κ := (E' - E) ^ 2 + δ * (H ^ 16 + ε) + ε with hκ
  have κ0 : 0 ≤ κ := by positivity
  set X := 0 + C * (1 * |b - a| + (visited i j).length * σ) with hXd
  set R := 0 + C * (((E' - E) ^ 2 + δ * (H ^ 16 + τ)) * |b - a| + (visited i j).length * σ) with hRd
  have lσ0 : 0 ≤ ((visited i j).length : ℝ) * σ := by positivity
  have X0 : 0 ≤ X := by positivity
  have R0 : 0 ≤ R := by positivity
  have Xle : X ≤ Xb := by
    rw [hXd, hXb, zero_add]
    exact mul_le_mul_of_nonneg_left (by linarith) (by linarith)
  have Rle : R ≤ C * M * κ := by
    rw [hRd, zero_add, mul_assoc]
    refine mul_le_mul_of_nonneg_left ?_ (by linarith)
    have a1 : (E' - E) ^ 2 + δ * (H ^ 16 + τ) ≤ (E' - E) ^ 2 + δ * (H ^ 16 + ε) := by
      have : τ ≤ ε := by linarith
      have := mul_le_mul_of_nonneg_left (add_le_add (le_refl (H ^ 16)) this) δ0
      linarith
    have a2 := mul_le_mul a1 hX' (abs_nonneg _) (by positivity)
    have a3 : ε ≤ M * ε := le_mul_of_one_le_left hε0 hM
    have a4 : M * κ = ((E' - E) ^ 2 + δ * (H ^ 16 + ε)) * M + M * ε := by rw [hκ]; ring
    linarith
  have δM : δ ≤ 2 * M := (abs_sub E' E).trans (by linarith)
  have Δ2 : (E' - E) ^ 2 = δ ^ 2 := (sq_abs _).symm
  have H16 : H ^ 16 ≤ 1 := pow_le_one₀ hH0.le hH1
  have κle : κ ≤ (2 * M + 2) * (δ + ε) := by
    have a1 : δ ^ 2 ≤ 2 * M * δ := by rw [pow_two]; exact mul_le_mul_of_nonneg_right δM δ0
    have a2 : δ * (H ^ 16 + ε) ≤ δ * 2 := mul_le_mul_of_nonneg_left (by linarith) δ0
    have a3 : 0 ≤ (2 * M + 1) * ε := by positivity
    rw [hκ, Δ2]
    linarith
  have eq0 : X = 0 + C * (1 * |b - a| + (visited i j).length * σ) := rfl
  have g1 : 1 * Real.exp (C * (1 * |b - a| + (visited i j).length * σ)) ≤ Real.exp Xb := by
    rw [one_mul]; refine Real.exp_le_exp.mpr ?_
    rw [zero_add] at eq0
    rw [← eq0]; exact Xle
  set g := 1 * Real.exp (C * (1 * |b - a| + (visited i j).length * σ)) with hg
  have g0 : 0 ≤ g := by positivity
  set Kc := Xb + C * M * (2 * M + 2) + C * M * (1 + 2 * M * Xb) + Xb ^ 2 with hKc
  have t1 : 0 ≤ C * M * (2 * M + 2) := by positivity
  have t2 : 0 ≤ C * M * (1 + 2 * M * Xb) := by positivity
  have t3 : 0 ≤ Xb ^ 2 := by positivity
  have s0 := sz_nonneg (pr c)
  have fin : ∀ {z w t : ℝ}, 0 ≤ w → w ≤ Kc * t → z ≤ g * w * sz (pr c) → z ≤ Real.exp Xb * Kc * t * sz (pr c) := by
    intro z w t hw hwt hz
    refine hz.trans (mul_le_mul_of_nonneg_right ?_ s0)
    have := mul_le_mul g1 hwt hw (Real.exp_pos _).le
    linarith
  have one : ∀ {z : ℝ}, z ≤ Real.exp Xb * Kc * 1 * sz (pr c) → z ≤ Real.exp Xb * Kc * sz (pr c) := fun h => by simpa using h
  refine ⟨one (fin zero_le_one (by linarith) (by rw [mul_one]; exact inv.u)), one (fin zero_le_one (by linarith) (by rw [mul_one]; exact inv.u')), one (fin X0 (by linarith) inv.w),
    fin (by positivity) ?_ inv.d, fin (by positivity) ?_ inv.q⟩
  · have a1 := mul_le_mul_of_nonneg_left Xle δ0
    have a2 := Rle.trans (mul_le_mul_of_nonneg_left κle (show 0 ≤ C * M by positivity))
    have a3 : 0 ≤ Xb * ε := by positivity
    have a4 : 0 ≤ (C * M * (1 + 2 * M * Xb) + Xb ^ 2) * (δ + ε) := by positivity
    have e : Kc * (δ + ε) = δ * Xb + Xb * ε + C * M * ((2 * M + 2) * (δ + ε)) + (C * M * (1 + 2 * M * Xb) + Xb ^ 2) * (δ + ε) := by rw [hKc]; ring
    linarith
  · have a1 : δ * X ≤ 2 * M * Xb := mul_le_mul δM Xle X0 (by linarith)
    have a2 : δ * X * R ≤ 2 * M * Xb * (C * M * κ) := mul_le_mul a1 Rle R0 (by positivity)
    have a3 : δ * X * (δ * X) ≤ Xb ^ 2 * κ := by
      have b1 : X * X ≤ Xb * Xb := mul_le_mul Xle Xle X0 (by linarith)
      have b2 : δ ^ 2 ≤ κ := by
        have : 0 ≤ δ * (H ^ 16 + ε) := by positivity
        rw [hκ, Δ2]; linarith
      have b3 := mul_le_mul b2 b1 (mul_nonneg X0 X0) κ0
      have b4 : δ * X * (δ * X) = δ ^ 2 * (X * X) := by ring
      rw [b4]; linarith
    have a4 : 0 ≤ (Xb + C * M * (2 * M + 2)) * κ := by positivity
    have e1 : R + δ * X * (δ * X + R) = R + δ * X * (δ * X) + δ * X * R := by ring
    have e2 : Kc * κ = C * M * κ + Xb ^ 2 * κ + 2 * M * Xb * (C * M * κ) + (Xb + C * M * (2 * M + 2)) * κ := by rw [hKc]; ring
    rw [e1, e2]
    linarith

end Verif.Solver
