import Verif.Lemmas.SectorStep
import Verif.Model.Solver
import Verif.Spec.Problem

/-!
# `Sector::propagate` of a constructed sector is near the solution flow
-/
namespace Verif

/-- the mirrored solution -/
theorem SolvesOn.mirror {V : ℝ → ℝ} {E a b : ℝ} {y dy : ℝ → ℝ} (h : SolvesOn V E a b y dy) :
    SolvesOn (fun x => V (a + b - x)) E a b (fun x => y (a + b - x)) (fun x => -dy (a + b - x)) := by
  have hm : Set.MapsTo (fun x => a + b - x) (Set.Icc a b) (Set.Icc a b) := fun x hx => ⟨by linarith [hx.2], by linarith [hx.1]⟩
  have hd : ∀ x, HasDerivWithinAt (fun x => a + b - x) (-1) (Set.Icc a b) x := fun x => ((hasDerivAt_id x).const_sub (a + b)).hasDerivWithinAt
  constructor
  · intro x hx
    exact ((h.d1 (a + b - x) (hm hx)).comp x (hd x) hm).congr_deriv (by ring)
  · intro x hx
    exact (((h.d2 (a + b - x) (hm hx)).comp x (hd x) hm).neg).congr_deriv (by ring)

/-- change of the sign of the derivative -/
def flipY (u : ℝ × ℝ) : ℝ × ℝ := (u.1, -u.2)

theorem sz_flipY (u : ℝ × ℝ) : sz (flipY u) = sz u := by simp [sz, flipY]
theorem flipY_sub (u v : ℝ × ℝ) : flipY u - flipY v = flipY (u - v) := by
  ext <;> simp [flipY]; ring
theorem flipY_flipY (u : ℝ × ℝ) : flipY (flipY u) = u := by simp [flipY]

theorem Near.mirror {V : ℝ → ℝ} {E a b : ℝ} {S : ℝ × ℝ → ℝ × ℝ} {x x' e : ℝ} (h : Near (fun x => V (a + b - x)) E a b S x x' e) :
    Near V E a b (fun u => flipY (S (flipY u))) (a + b - x) (a + b - x') e := by
  intro z dz hz
  have h1 := h _ _ hz.mirror
  have e1 : ∀ t, (z t, -dz t) = flipY (z t, dz t) := fun t => rfl
  rw [e1, e1, sz_flipY] at h1
  have : flipY (S (flipY (z (a + b - x), dz (a + b - x)))) - (z (a + b - x'), dz (a + b - x')) =
      flipY (S (flipY (z (a + b - x), dz (a + b - x))) - flipY (z (a + b - x'), dz (a + b - x'))) := by
    rw [← flipY_sub, flipY_flipY]
  rw [this, sz_flipY]
  exact h1

end Verif

namespace Verif.CalcT
open Verif.YT Verif.Formulas Verif.PL Verif.Legendre
open scoped BigOperators

theorem EPS_pos : (0 : ℝ) < (EPS : ℝ) := by unfold EPS; norm_num
theorem EPS_val : ((EPS : ℚ) : ℝ) = 1 / 10 ^ 12 := by unfold EPS; norm_num

theorem pot_bound {M : ℝ} {W : ℝ → ℝ} {a b E : ℝ} (hW : SmoothOn M W a b) (hE : |E| ≤ M) :
    ∀ x ∈ Set.Icc a b, |W x - E| ≤ 2 * M := fun x hx => (abs_sub _ _).trans (by linarith [hW.bound hx])

theorem mapOf_one : mapOf (T.one : T ℝ).t = id := by
  funext u; simp [mapOf, mv, T.one]

/-- order of the error of a full step: with `use_h` the separate table for full steps is used -/
def ord (useH : Bool) : ℕ := if useH then 16 else 14

/-- All steps of `calculateT`. -/
theorem tr_near (M : ℝ) (hM : 1 ≤ M) : ∃ C : ℝ, 1 ≤ C ∧ ∀ (eps σ τ : ℝ) (eta : ℕ → ℝ → ℕ → ℝ) (v : ℕ → ℝ) (W : ℝ → ℝ) (a b E : ℝ),
    EtaWithin σ eta → σ ≤ 1 → τ ≤ 1 → 0 ≤ eps →
    eps < b - a → b - a ≤ 1 → SmoothOn M W a b → CoeffWithin τ W a b v → |E| ≤ M →
    (∀ δ d useH, 0 ≤ δ → δ ≤ b - a → 0 ≤ d → (δ ≤ eps → δ ≤ d) → (b - a - δ ≤ eps → b - a - δ ≤ d) →
      Near W E a b (mapOf (calculateTWith eps eta (mkSec (b - a) v) E δ useH).t) a (a + δ) (C * ((b - a) ^ 15 + (b - a) * τ + σ + d))) ∧
    ∀ useH, Near W E a b (mapOf (calculateTWith eps eta (mkSec (b - a) v) E (b - a) useH).t) a b
      (C * ((b - a) ^ (ord useH + 1) + (b - a) * τ + σ)) := by
  obtain ⟨C1, h1, full⟩ := full_near M hM
  obtain ⟨C2, h2, part⟩ := delta_near M hM
  set K := 2 * M with hK
  have hK1 : 1 ≤ K := by linarith
  have hx := Real.exp_pos K
  refine ⟨1 + C1 + C2 + K * Real.exp K + (Real.exp K + K * Real.exp K) * C1 + K * Real.exp K * Real.exp K, ?_, ?_⟩
  · have : 0 ≤ C1 + C2 + K * Real.exp K + (Real.exp K + K * Real.exp K) * C1 + K * Real.exp K * Real.exp K := by positivity
    linarith
  intro eps σ τ eta v W a b E he hσ1 hτ1 heps hab hb hW hv hE
  have hσ0 := he.nonneg
  have hτ0 := hv.nonneg
  set CC := 1 + C1 + C2 + K * Real.exp K + (Real.exp K + K * Real.exp K) * C1 + K * Real.exp K * Real.exp K with hCC
  set h := b - a with hh
  have h0 : 0 < h := by linarith
  have hlt : a < b := by linarith
  have q := pot_bound hW hE
  have hcont := hW.continuousOn
  have p1 : 0 ≤ (Real.exp K + K * Real.exp K) * C1 := by positivity
  have p2 : 0 ≤ K * Real.exp K * Real.exp K := by positivity
  have p3 : 0 ≤ K * Real.exp K := by positivity
  have fullN := full σ τ eta v W a b E he hσ1 hτ1 hlt hb hW hv hE
  have hfull : calculateTWith eps eta (mkSec h v) E h true = calcH eta (mkSec h v) E := by
    unfold calculateTWith Eta.absK
    simp only [ccmp_lt, ccmp_le, ccmp_lit, h0.not_gt, decide_false, Bool.false_eq_true, if_false]
    rw [if_neg (by simpa using hab)]
    have : (mkSec h v).h = h := rfl
    simp only [this, sub_self, lt_irrefl, decide_false, Bool.false_eq_true, if_false, Bool.true_and]
    rw [if_pos (by simpa using heps)]
  constructor
  · intro δ d useH d0 d1 hd0 hs1 hs2
    have habs : Eta.absK δ = δ := by unfold Eta.absK; simp [d0.not_gt]
    have memA : a ∈ Set.Icc a b := ⟨le_rfl, hlt.le⟩
    have memB : b ∈ Set.Icc a b := ⟨hlt.le, le_rfl⟩
    have memD : a + δ ∈ Set.Icc a b := ⟨by linarith, by linarith⟩
    have h15 : 0 ≤ h ^ 15 := by positivity
    have hτh : 0 ≤ h * τ := by positivity
    set eP := h ^ 15 + h * τ + σ + d with heP
    have eP0 : 0 ≤ eP := by positivity
    have edP : d ≤ eP := by rw [heP]; linarith
    unfold calculateTWith
    rw [habs]
    simp only [ccmp_le, ccmp_lit]
    split
    · rename_i hc
      simp only [decide_eq_true_eq] at hc
      rw [mapOf_one]
      refine (short_near hK1 q hb memA memD).mono ?_
      rw [add_sub_cancel_left, abs_of_nonneg d0]
      calc K * Real.exp K * δ ≤ CC * d := mul_le_mul (by rw [hCC]; linarith) (hs1 hc) d0 (by rw [hCC]; linarith)
        _ ≤ _ := mul_le_mul_of_nonneg_left edP (by rw [hCC]; linarith)
    · rename_i hc
      simp only [decide_eq_true_eq, not_le] at hc
      split
      · rename_i hc2
        simp only [Bool.and_eq_true, decide_eq_true_eq] at hc2
        have hh2 := hc2.2
        have hval : Eta.absK (δ - (mkSec h v).h) = h - δ := by
          have : (mkSec h v).h = h := rfl
          rw [this]; unfold Eta.absK
          simp only [ccmp_lt, decide_eq_true_eq]
          split
          · ring
          · linarith
        rw [hval] at hh2
        have hh3 := hs2 hh2
        have sn := short_near hK1 q hb memB memD
        have e0 : |a + δ - b| = h - δ := by rw [abs_of_nonpos (by linarith)]; rw [hh]; ring
        rw [e0] at sn
        have e0' : 0 ≤ h - δ := by linarith
        have cp := fullN.comp sn (by positivity) hK1 hcont q memA memB memD
        rw [e0, abs_of_nonneg h0.le] at cp
        refine Near.mono (S := mapOf (calcH eta (mkSec h v) E).t) cp ?_
        have x1 : Real.exp (K * (h - δ)) ≤ Real.exp K := Real.exp_le_exp.mpr (by nlinarith)
        have x2 : Real.exp (K * h) ≤ Real.exp K := Real.exp_le_exp.mpr (by nlinarith)
        have s2 : K * Real.exp K * (h - δ) ≤ K * Real.exp K := by
          refine mul_le_of_le_one_right p3 (by linarith)
        have s3 : K * Real.exp K * (h - δ) ≤ K * Real.exp K * eP :=
          mul_le_mul_of_nonneg_left (by linarith) p3
        have s1 : h ^ 17 + h * τ + σ ≤ eP := by
          have : h ^ 17 ≤ h ^ 15 := pow_le_pow_of_le_one h0.le hb (by norm_num)
          rw [heP]; linarith
        have s4 : (Real.exp (K * (h - δ)) + K * Real.exp K * (h - δ)) * (C1 * (h ^ 17 + h * τ + σ)) ≤
            (Real.exp K + K * Real.exp K) * (C1 * eP) := by
          refine mul_le_mul (add_le_add x1 s2) (mul_le_mul_of_nonneg_left s1 h1) (by positivity) (by positivity)
        have s5 : K * Real.exp K * (h - δ) * Real.exp (K * h) ≤ K * Real.exp K * eP * Real.exp K :=
          mul_le_mul s3 x2 (Real.exp_pos _).le (by positivity)
        have s6 : CC * eP = (1 + C1 + C2 + K * Real.exp K) * eP +
          (Real.exp K + K * Real.exp K) * (C1 * eP) + K * Real.exp K * eP * Real.exp K := by
          rw [hCC]; ring
        have s7 : 0 ≤ (1 + C1 + C2 + K * Real.exp K) * eP := by positivity
        rw [s6]
        linarith only [s4, s5, s7]
      · refine (part σ τ eta v W a b E δ he hσ1 hτ1 hlt hb hW hv hE (heps.trans_lt hc) d1).mono ?_
        exact mul_le_mul (by rw [hCC]; linarith) (by rw [heP]; linarith) (by positivity) (by rw [hCC]; linarith)
  · intro useH
    cases useH with
    | true =>
      rw [hfull]
      exact fullN.mono (mul_le_mul_of_nonneg_right (by rw [hCC]; linarith) (by positivity))
    | false =>
      have hpart : calculateTWith eps eta (mkSec h v) E h false = calcDelta eta (mkSec h v) E h := by
        unfold calculateTWith Eta.absK
        simp only [ccmp_lt, ccmp_le, ccmp_lit, h0.not_gt, decide_false, Bool.false_eq_true, if_false]
        rw [if_neg (by simpa using hab)]
        simp
      rw [hpart]
      have := part σ τ eta v W a b E h he hσ1 hτ1 hlt hb hW hv hE h0 le_rfl
      have e : a + h = b := by rw [hh]; ring
      rw [e] at this
      exact this.mono (mul_le_mul_of_nonneg_right (by rw [hCC]; linarith) (by positivity))

end Verif.CalcT

namespace Verif.Solver
open Verif.Mesh Verif.YT Verif.CalcT Verif.Propag Verif.Formulas Verif.Legendre

/-- the value part of a column -/
def pr (y : Y ℝ) : ℝ × ℝ := (y.y, y.dy)

/-- position in `[a, b]` nearest to `x` -/
noncomputable def cl (a b x : ℝ) : ℝ := max a (min x b)

theorem cl_low {a b x : ℝ} (h : x ≤ a) : cl a b x = a := max_eq_left ((min_le_left _ _).trans h)
theorem cl_high {a b x : ℝ} (hab : a ≤ b) (h : b ≤ x) : cl a b x = b := by unfold cl; rw [min_eq_right h, max_eq_right hab]
theorem cl_mem {a b : ℝ} (hab : a ≤ b) (x : ℝ) : cl a b x ∈ Set.Icc a b := ⟨le_max_left _ _, max_le hab (min_le_right _ _)⟩
theorem cl_of_mem {a b x : ℝ} (h : x ∈ Set.Icc a b) : cl a b x = x := by unfold cl; rw [min_eq_left h.2, max_eq_right h.1]

theorem pr_mul (t : T ℝ) (y : Y ℝ) : pr (t.mul y) = mapOf t.t (pr y) := rfl
theorem pr_div (t : T ℝ) (y : Y ℝ) : pr (t.div y) = mapOf t.t.adj (pr y) := rfl
theorem pr_reverse (y : Y ℝ) : pr y.reverse = flipY (pr y) := rfl

/-- The coefficients the code stores for a sector are accurate. -/
theorem coeffWithin_sector {M H : ℝ} (hM : 0 ≤ M) {V W : ℝ → ℝ} {s : Sec ℝ} (hlt : s.min < s.max) (hn : s.max - s.min ≤ H) (hH : H ≤ 1)
    (hW : SmoothOn M W s.min s.max) (hV : ∀ x, s.min < x → x < s.max → V x = W x) :
    CoeffWithin (16 * M / 10 ^ 14 + 37 * M * H ^ 16) (oriented W s) s.min s.max (sectorVs V s) := by
  have h1 : s.max - s.min ≤ 1 := hn.trans hH
  have hle : 16 * M / 10 ^ 14 + 37 * M * (s.max - s.min) ^ 16 ≤ 16 * M / 10 ^ 14 + 37 * M * H ^ 16 := by
    have := pow_le_pow_left₀ (by linarith) hn 16
    have := mul_le_mul_of_nonneg_left this (show 0 ≤ 37 * M by linarith)
    linarith
  have wk : ∀ {τ τ' : ℝ} {f : ℝ → ℝ} {a b : ℝ} {v : ℕ → ℝ}, CoeffWithin τ f a b v → τ ≤ τ' → CoeffWithin τ' f a b v :=
    fun h hl => ⟨fun k hk => (h.near k hk).trans hl, h.zero⟩
  by_cases hd : s.dir = .backward
  · have e : sectorVs V s = fun k => if k < 16 then getCoefficients 16 (fun x => V (s.min + s.max - x)) s.min s.max k else 0 := by
      funext k
      unfold sectorVs matsliseN
      split
      · rename_i hk
        rw [coeff_mirror V k hk]
        simp only [hd, if_true]
        split
        · rename_i ho
          rw [(Nat.odd_iff.mpr ho).neg_one_pow]; ring
        · rename_i ho
          rw [(Nat.even_iff.mpr (by omega)).neg_one_pow]; ring
      · rfl
    rw [e, oriented, if_pos hd]
    exact wk (coeffWithin_code hlt h1 hW.reflect (fun x h1 h2 => hV _ (by linarith) (by linarith))) hle
  · have e : sectorVs V s = fun k => if k < 16 then getCoefficients 16 V s.min s.max k else 0 := by
      funext k
      unfold sectorVs matsliseN
      simp only [hd, if_false]
    rw [e, oriented, if_neg hd]
    exact wk (coeffWithin_code hlt h1 hW hV) hle

/-- The coefficients the code stores are accurate. -/
theorem coeffsWithin_code {M H : ℝ} (hM : 1 ≤ M) {V : ℝ → ℝ} {W : Sec ℝ → ℝ → ℝ} {dmin dmax : ℝ} {secs : List (Sec ℝ)}
    {eps : ℝ} (hf : FitMesh eps M H W dmin dmax secs) (hV : Agrees V W secs) :
    CoeffsWithin (16 * M / 10 ^ 14 + 37 * M * H ^ 16) W secs (sectorVs V) := by
  intro s hs
  have hw := hf.wide s hs
  have := hf.eps_nonneg
  exact coeffWithin_sector (by linarith) (by linarith) (hf.narrow s hs) hf.small (hf.smooth s hs) (hV s hs)

/-- The two sector sweeps, to and from the base point, as maps. -/
structure Sweeps (W : ℝ → ℝ) (E a b base : ℝ) (x eP eF : ℝ) (So Si : ℝ × ℝ → ℝ × ℝ) : Prop where
  out : Near W E a b So base (cl a b x) eP
  inn : Near W E a b Si (cl a b x) base eP
  outF : x ≤ a ∨ b ≤ x → Near W E a b So base (cl a b x) eF
  innF : x ≤ a ∨ b ≤ x → Near W E a b Si (cl a b x) base eF
  idd : cl a b x = base → So = id ∧ Si = id

/-- `propagateDelta` of a forward sector as a map. -/
theorem delta_fwd {s : PSec ℝ} (hd : s.dir = .forward) (hs : s.h = s.max - s.min) (hlt : s.min < s.max) (E : ℝ) (useH : Bool) (st : Y ℝ × ℝ) {x : ℝ} (hx : s.min < x) :
    pr (s.propagateDelta E useH st (x - s.min)).1 = mapOf (s.tr E (cl s.min s.max x - s.min) useH).t (pr st.1) ∧
    pr (s.propagateDelta E useH st (s.min - x)).1 = mapOf (s.tr E (cl s.min s.max x - s.min) useH).t.adj (pr st.1) := by
  have e1 : (if s.h < x - s.min then s.h else x - s.min) = cl s.min s.max x - s.min := by
    rw [hs]; unfold cl
    split
    · rw [min_eq_right (by linarith), max_eq_right hlt.le]
    · rw [min_eq_left (by linarith), max_eq_right hx.le]
  have hpos : (0 : ℝ) ≤ x - s.min := by linarith
  have hneg : ¬ (0 : ℝ) ≤ s.min - x := by linarith
  unfold PSec.propagateDelta
  simp only [hd, ccmp_le, ccmp_lt, decide_eq_true_eq, hpos, hneg, neg_sub, if_true, e1, reduceCtorEq, if_false]
  exact ⟨pr_mul _ _, pr_div _ _⟩

/-- `propagateDelta` of a backward sector as a map. -/
theorem delta_bwd {s : PSec ℝ} (hd : s.dir = .backward) (hs : s.h = s.max - s.min) (E : ℝ) (useH : Bool) (st : Y ℝ × ℝ) {x : ℝ} (hx : x < s.max) :
    pr (s.propagateDelta E useH st (x - s.max)).1 = flipY (mapOf (s.tr E (s.max - cl s.min s.max x) useH).t (flipY (pr st.1))) ∧
    pr (s.propagateDelta E useH st (s.max - x)).1 = flipY (mapOf (s.tr E (s.max - cl s.min s.max x) useH).t.adj (flipY (pr st.1))) := by
  have e1 : (if s.h < s.max - x then s.h else s.max - x) = s.max - cl s.min s.max x := by
    rw [hs]; unfold cl
    rw [min_eq_left hx.le]
    split
    · rw [max_eq_left (by linarith)]
    · rw [max_eq_right (by linarith)]
  have hpos : (0 : ℝ) ≤ s.max - x := by linarith
  have hneg : ¬ (0 : ℝ) ≤ x - s.max := by linarith
  unfold PSec.propagateDelta
  simp only [hd, ccmp_le, ccmp_lt, decide_eq_true_eq, hpos, hneg, neg_sub, if_true, e1, if_false]
  exact ⟨rfl, rfl⟩

/-- The sweeps of a constructed sector. -/
theorem sweeps (M : ℝ) (hM : 1 ≤ M) : ∃ C : ℝ, 1 ≤ C ∧ ∀ (eps σ τ d : ℝ) (eta : ℕ → ℝ → ℕ → ℝ) (v : ℕ → ℝ) (W : ℝ → ℝ) (v0M E : ℝ) (s : Sec ℝ) (useH : Bool) (x : ℝ),
    EtaWithin σ eta → σ ≤ 1 → τ ≤ 1 → 0 ≤ d → Skips eps d s.min s.max x → 0 ≤ eps → eps < s.max - s.min → s.max - s.min ≤ 1 → SmoothOn M W s.min s.max → CoeffWithin τ (oriented W s) s.min s.max v → |E| ≤ M →
    (s.dir = .forward → ∃ So Si, Sweeps W E s.min s.max s.min x (C * ((s.max - s.min) ^ 15 + (s.max - s.min) * τ + σ + d))
        (C * ((s.max - s.min) ^ (ord useH + 1) + (s.max - s.min) * τ + σ)) So Si ∧
      ∀ st : Y ℝ × ℝ,
        pr (if s.min < x then (sectorOf eps eta v v0M s).propagateDelta E useH st (x - s.min) else st).1 = So (pr st.1) ∧
        pr (if s.min < x then (sectorOf eps eta v v0M s).propagateDelta E useH st (s.min - x) else st).1 = Si (pr st.1)) ∧
    (s.dir = .backward → ∃ So Si, Sweeps W E s.min s.max s.max x (C * ((s.max - s.min) ^ 15 + (s.max - s.min) * τ + σ + d))
        (C * ((s.max - s.min) ^ (ord useH + 1) + (s.max - s.min) * τ + σ)) So Si ∧
      ∀ st : Y ℝ × ℝ,
        pr (if x < s.max then (sectorOf eps eta v v0M s).propagateDelta E useH st (x - s.max) else st).1 = So (pr st.1) ∧
        pr (if x < s.max then (sectorOf eps eta v v0M s).propagateDelta E useH st (s.max - x) else st).1 = Si (pr st.1)) := by
  obtain ⟨C, hC, key⟩ := tr_near M hM
  refine ⟨2 * C, by linarith, ?_⟩
  intro eps σ τ d eta v W v0M E s useH x he hσ1 hτ1 hd0 hsk heps hw hw1 hW hv hE
  have hσ0 := he.nonneg
  have hτ0 := hv.nonneg
  have hlt : s.min < s.max := by linarith
  set h := s.max - s.min with hh
  have h0 : 0 < h := by linarith
  have hcont := hW.continuousOn
  have nP : 0 ≤ C * (h ^ 15 + h * τ + σ + d) := by positivity
  have nF : 0 ≤ C * (h ^ (ord useH + 1) + h * τ + σ) := by positivity
  have dP : C * (h ^ 15 + h * τ + σ + d) ≤ 2 * C * (h ^ 15 + h * τ + σ + d) := by nlinarith
  have dF : C * (h ^ (ord useH + 1) + h * τ + σ) ≤ 2 * C * (h ^ (ord useH + 1) + h * τ + σ) := by nlinarith
  have memc := cl_mem hlt.le x
  have skF : s.min < x → (cl s.min s.max x - s.min ≤ eps → cl s.min s.max x - s.min ≤ d) ∧
      (s.max - s.min - (cl s.min s.max x - s.min) ≤ eps → s.max - s.min - (cl s.min s.max x - s.min) ≤ d) := by
    intro hx
    rcases lt_or_ge x s.max with hx2 | hx2
    · obtain ⟨k1, k2⟩ := hsk hx hx2
      rw [cl_of_mem ⟨hx.le, hx2.le⟩]
      exact ⟨k1, fun h => by have := k2 (by linarith); linarith⟩
    · rw [cl_high hlt.le hx2]
      exact ⟨fun h => by linarith, fun h => by linarith⟩
  have skB : x < s.max → (s.max - cl s.min s.max x ≤ eps → s.max - cl s.min s.max x ≤ d) ∧
      (s.max - s.min - (s.max - cl s.min s.max x) ≤ eps → s.max - s.min - (s.max - cl s.min s.max x) ≤ d) := by
    intro hx
    rcases lt_or_ge s.min x with hx2 | hx2
    · obtain ⟨k1, k2⟩ := hsk hx2 hx
      rw [cl_of_mem ⟨hx2.le, hx.le⟩]
      exact ⟨k2, fun h => by have := k1 (by linarith); linarith⟩
    · rw [cl_low hx2]
      exact ⟨fun h => by linarith, fun h => by linarith⟩
  constructor
  · intro hd
    rw [oriented, if_neg (by rw [hd]; decide)] at hv
    obtain ⟨k1, k2⟩ := key eps σ τ eta v W s.min s.max E he hσ1 hτ1 heps hw hw1 hW hv hE
    by_cases hx : s.min < x
    · have hs1 : (sectorOf eps eta v v0M s).dir = .forward := hd
      refine ⟨mapOf ((sectorOf eps eta v v0M s).tr E (cl s.min s.max x - s.min) useH).t,
        mapOf ((sectorOf eps eta v v0M s).tr E (cl s.min s.max x - s.min) useH).t.adj, ?_, ?_⟩
      · have o1 := k1 (cl s.min s.max x - s.min) d useH (by linarith [memc.1]) (by linarith [memc.2]) hd0 (skF hx).1 (skF hx).2
        rw [add_sub_cancel] at o1
        have i1 := o1.adj hcont memc
        refine ⟨o1.mono dP, i1.mono (by linarith), ?_, ?_, ?_⟩
        · intro hxx
          have : cl s.min s.max x = s.max := cl_high hlt.le (hxx.resolve_left hx.not_ge)
          rw [this]
          exact (k2 useH).mono dF
        · intro hxx
          have : cl s.min s.max x = s.max := cl_high hlt.le (hxx.resolve_left hx.not_ge)
          rw [this]
          exact ((k2 useH).adj hcont ⟨hlt.le, le_rfl⟩).mono (by linarith)
        · intro hc
          exfalso
          have : s.min < cl s.min s.max x := lt_of_lt_of_le (lt_min hx hlt) (le_max_right _ _)
          linarith
      · intro st
        rw [if_pos hx, if_pos hx]
        exact delta_fwd (s := sectorOf eps eta v v0M s) hs1 rfl hlt E useH st hx
    · have e := cl_low (b := s.max) (not_lt.mp hx)
      refine ⟨id, id, ?_, fun st => by rw [if_neg hx, if_neg hx]; exact ⟨rfl, rfl⟩⟩
      have z := Near.refl W E s.min s.max s.min
      rw [← hh] at *
      refine ⟨?_, ?_, fun _ => ?_, fun _ => ?_, fun _ => ⟨rfl, rfl⟩⟩ <;> rw [e] <;> exact z.mono (by linarith)
  · intro hd
    rw [oriented, if_pos hd] at hv
    obtain ⟨k1, k2⟩ := key eps σ τ eta v (fun x => W (s.min + s.max - x)) s.min s.max E he hσ1 hτ1 heps hw hw1 hW.reflect hv hE
    by_cases hx : x < s.max
    · have hs1 : (sectorOf eps eta v v0M s).dir = .backward := hd
      refine ⟨fun u => flipY (mapOf ((sectorOf eps eta v v0M s).tr E (s.max - cl s.min s.max x) useH).t (flipY u)),
        fun u => flipY (mapOf ((sectorOf eps eta v v0M s).tr E (s.max - cl s.min s.max x) useH).t.adj (flipY u)), ?_, ?_⟩
      · have hc' := hW.reflect.continuousOn
        have o1 := k1 (s.max - cl s.min s.max x) d useH (by linarith [memc.2]) (by linarith [memc.1]) hd0 (skB hx).1 (skB hx).2
        have i1 := o1.adj hc' ⟨by linarith [memc.2], by linarith [memc.1]⟩
        have o2 := o1.mirror
        have i2 := i1.mirror
        have a1 : s.min + s.max - s.min = s.max := by ring
        have a2 : s.min + s.max - (s.min + (s.max - cl s.min s.max x)) = cl s.min s.max x := by ring
        rw [a1, a2] at o2 i2
        have a3 : s.min + s.max - s.max = s.min := by ring
        refine ⟨o2.mono dP, i2.mono (by linarith), ?_, ?_, ?_⟩
        · intro hxx
          have : cl s.min s.max x = s.min := cl_low (hxx.resolve_right hx.not_ge)
          rw [this]
          have := (k2 useH).mirror
          rw [a1, a3] at this
          exact this.mono dF
        · intro hxx
          have : cl s.min s.max x = s.min := cl_low (hxx.resolve_right hx.not_ge)
          rw [this]
          have := ((k2 useH).adj hc' ⟨hlt.le, le_rfl⟩).mirror
          rw [a1, a3] at this
          exact this.mono (by linarith)
        · intro hc
          exfalso
          have : cl s.min s.max x < s.max := max_lt hlt (lt_of_le_of_lt (min_le_left _ _) hx)
          linarith
      · intro st
        rw [if_pos hx, if_pos hx]
        exact delta_bwd (s := sectorOf eps eta v v0M s) hs1 rfl E useH st hx
    · have e := cl_high hlt.le (not_lt.mp hx)
      refine ⟨id, id, ?_, fun st => by rw [if_neg hx, if_neg hx]; exact ⟨rfl, rfl⟩⟩
      have z := Near.refl W E s.min s.max s.max
      refine ⟨?_, ?_, fun _ => ?_, fun _ => ?_, fun _ => ⟨rfl, rfl⟩⟩ <;> rw [e] <;> exact z.mono (by linarith)

/-- `Sector::propagate` in the two cases. -/
theorem propagate_cases (s : PSec ℝ) (E : ℝ) (useH : Bool) (a b : ℝ) (y : Y ℝ) :
    ((s.max ≤ a ∧ s.max ≤ b) ∨ (a ≤ s.min ∧ b ≤ s.min) → s.propagate E useH y a b = (y, 0)) ∧
    (¬ ((s.max ≤ a ∧ s.max ≤ b) ∨ (a ≤ s.min ∧ b ≤ s.min)) → s.propagate E useH y a b =
        if s.dir = .forward then
          if s.min < b then s.propagateDelta E useH
              (if s.min < a then s.propagateDelta E useH (y, 0) (s.min - a) else (y, 0)) (b - s.min)
          else (if s.min < a then s.propagateDelta E useH (y, 0) (s.min - a) else (y, 0))
        else
          if b < s.max then s.propagateDelta E useH
              (if a < s.max then s.propagateDelta E useH (y, 0) (s.max - a) else (y, 0)) (b - s.max)
          else (if a < s.max then s.propagateDelta E useH (y, 0) (s.max - a) else (y, 0))) := by
  unfold PSec.propagate
  simp only [ccmp_le, ccmp_lt, decide_eq_true_eq]
  constructor
  · intro h
    rw [if_neg]
    simp only [Bool.not_eq_true', Bool.or_eq_false_iff, Bool.and_eq_false_iff, decide_eq_false_iff_not]
    tauto
  · intro h
    rw [if_pos]
    simp only [Bool.not_eq_true', Bool.or_eq_false_iff, Bool.and_eq_false_iff, decide_eq_false_iff_not]
    tauto

/-- **One sector of `propagate`.** -/
theorem sector_near (M : ℝ) (hM : 1 ≤ M) : ∃ C : ℝ, 1 ≤ C ∧ ∀ (eps σ τ d : ℝ) (eta : ℕ → ℝ → ℕ → ℝ) (v : ℕ → ℝ) (W : ℝ → ℝ) (v0M E : ℝ) (s : Sec ℝ) (useH : Bool) (a b : ℝ),
    EtaWithin σ eta → σ ≤ 1 → τ ≤ 1 → 0 ≤ d → d ≤ 1 → Skips eps d s.min s.max a → Skips eps d s.min s.max b → 0 ≤ eps → eps < s.max - s.min → s.max - s.min ≤ 1 → SmoothOn M W s.min s.max → CoeffWithin τ (oriented W s) s.min s.max v → |E| ≤ M →
    s.dir ≠ .none →
    ∃ S : ℝ × ℝ → ℝ × ℝ, (∀ y, pr ((sectorOf eps eta v v0M s).propagate E useH y a b).1 = S (pr y)) ∧
      Near W E s.min s.max S (cl s.min s.max a) (cl s.min s.max b) (C * ((s.max - s.min) ^ 15 + (s.max - s.min) * τ + σ + d)) ∧
      (a ≤ s.min ∨ s.max ≤ a → b ≤ s.min ∨ s.max ≤ b →
        Near W E s.min s.max S (cl s.min s.max a) (cl s.min s.max b)
          (C * (((s.max - s.min) ^ ord useH + τ) * |cl s.min s.max b - cl s.min s.max a| + σ))) := by
  obtain ⟨C, hC, key⟩ := sweeps M hM
  have hx := Real.exp_pos (2 * M)
  have hx1 : 1 ≤ Real.exp (2 * M) := Real.one_le_exp (by linarith)
  refine ⟨(2 * Real.exp (2 * M) + 4 * C) * C, by nlinarith, ?_⟩
  intro eps σ τ d eta v W v0M E s useH a b he hσ1 hτ1 hd0 hd1 hka hkb heps hw hw1 hW hv hE hd
  have hσ0 := he.nonneg
  have hτ0 := hv.nonneg
  have hlt : s.min < s.max := by linarith
  set h := s.max - s.min with hh
  have h0 : 0 < h := by linarith
  have hcont := hW.continuousOn
  have q := pot_bound hW hE
  obtain ⟨fa, ba⟩ := key eps σ τ d eta v W v0M E s useH a he hσ1 hτ1 hd0 hka heps hw hw1 hW hv hE
  obtain ⟨fb, bb⟩ := key eps σ τ d eta v W v0M E s useH b he hσ1 hτ1 hd0 hkb heps hw hw1 hW hv hE
  have ca := cl_mem hlt.le a
  have cb := cl_mem hlt.le b
  have h15 : h ^ 15 ≤ 1 := pow_le_one₀ h0.le hw1
  have eP0 : 0 ≤ C * (h ^ 15 + h * τ + σ + d) := by positivity
  have eP2 : C * (h ^ 15 + h * τ + σ + d) ≤ 4 * C := by
    have : h * τ ≤ 1 * 1 := mul_le_mul hw1 hτ1 hτ0 zero_le_one
    have := mul_le_mul_of_nonneg_left (show h ^ 15 + h * τ + σ + d ≤ 4 by linarith) (show 0 ≤ C by linarith)
    linarith
  -- the composition of a sweep to the base point and one from it
  have comp : ∀ (base : ℝ) (Si So : ℝ × ℝ → ℝ × ℝ), base ∈ Set.Icc s.min s.max →
      Near W E s.min s.max Si (cl s.min s.max a) base (C * (h ^ 15 + h * τ + σ + d)) →
      Near W E s.min s.max So base (cl s.min s.max b) (C * (h ^ 15 + h * τ + σ + d)) →
      Near W E s.min s.max (fun u => So (Si u)) (cl s.min s.max a) (cl s.min s.max b) ((2 * Real.exp (2 * M) + 4 * C) * C * (h ^ 15 + h * τ + σ + d)) := by
    intro base Si So hb h1 h2
    refine (h1.comp h2 eP0 (by linarith) hcont q ca hb cb).mono ?_
    have r : ∀ {u v : ℝ}, u ∈ Set.Icc s.min s.max → v ∈ Set.Icc s.min s.max → Real.exp (2 * M * |u - v|) ≤ Real.exp (2 * M) := by
      intro u v hu hv
      refine Real.exp_le_exp.mpr ?_
      have : |u - v| ≤ 1 := by rw [abs_le]; constructor <;> linarith [hu.1, hu.2, hv.1, hv.2]
      nlinarith
    have r1 := r cb hb
    have r2 := r hb ca
    have m1 := mul_le_mul_of_nonneg_right (add_le_add r1 eP2) eP0
    have m2 := mul_le_mul_of_nonneg_left r2 eP0
    have e : (2 * Real.exp (2 * M) + 4 * C) * C * (h ^ 15 + h * τ + σ + d) = (Real.exp (2 * M) + 4 * C) * (C * (h ^ 15 + h * τ + σ + d)) +
      C * (h ^ 15 + h * τ + σ + d) * Real.exp (2 * M) := by ring
    rw [e]; exact add_le_add m1 m2
  have eF : C * (h ^ (ord useH + 1) + h * τ + σ) ≤ (2 * Real.exp (2 * M) + 4 * C) * C * ((h ^ ord useH + τ) * h + σ) := by
    have e1 : h ^ (ord useH + 1) + h * τ + σ = (h ^ ord useH + τ) * h + σ := by ring
    rw [e1]
    have e2 : 1 * C ≤ (2 * Real.exp (2 * M) + 4 * C) * C := mul_le_mul_of_nonneg_right (by linarith) (by linarith)
    rw [one_mul] at e2
    exact mul_le_mul_of_nonneg_right e2 (by positivity)
  by_cases hskip : (s.max ≤ a ∧ s.max ≤ b) ∨ (a ≤ s.min ∧ b ≤ s.min)
  · refine ⟨id, fun y => ?_, ?_⟩
    · rw [(propagate_cases (sectorOf eps eta v v0M s) E useH a b y).1 hskip]; rfl
    · have e : cl s.min s.max a = cl s.min s.max b := by
        rcases hskip with hs | hs
        · rw [cl_high hlt.le hs.1, cl_high hlt.le hs.2]
        · rw [cl_low hs.1, cl_low hs.2]
      rw [e]
      have z := Near.refl W E s.min s.max (cl s.min s.max b)
      refine ⟨z.mono (by positivity), fun _ _ => z.mono (by positivity)⟩
  · have hprop := fun y => (propagate_cases (sectorOf eps eta v v0M s) E useH a b y).2 hskip
    cases hdir : s.dir with
    | none => exact absurd hdir hd
    | forward =>
      obtain ⟨So, So', wb, eb⟩ := fb hdir
      obtain ⟨Si', Si, wa, ea⟩ := fa hdir
      refine ⟨fun u => So (Si u), fun y => ?_, comp s.min Si So ⟨le_rfl, hlt.le⟩ wa.inn wb.out, ?_⟩
      · rw [hprop, if_pos (show (sectorOf eps eta v v0M s).dir = .forward from hdir)]; exact (eb _).1.trans (congrArg So (ea _).2)
      · intro haa hbb
        rcases haa with haa | haa
        · have hb2 : s.max ≤ b := by
            rcases hbb with hbb | hbb
            · exact absurd (Or.inr ⟨haa, hbb⟩) hskip
            · exact hbb
          have e1 : cl s.min s.max a = s.min := cl_low haa
          have e2 : cl s.min s.max b = s.max := cl_high hlt.le hb2
          have hid := (wa.idd e1).2
          have := wb.outF (Or.inr hb2)
          rw [hid, e1, e2, ← hh, abs_of_pos h0]
          rw [e2] at this
          exact this.mono eF
        · have hb2 : b ≤ s.min := by
            rcases hbb with hbb | hbb
            · exact hbb
            · exact absurd (Or.inl ⟨haa, hbb⟩) hskip
          have e1 : cl s.min s.max a = s.max := cl_high hlt.le haa
          have e2 : cl s.min s.max b = s.min := cl_low hb2
          have hid := (wb.idd e2).1
          have := wa.innF (Or.inr haa)
          rw [hid, e1, e2, abs_sub_comm, ← hh, abs_of_pos h0]
          rw [e1] at this
          exact this.mono eF
    | backward =>
      obtain ⟨So, So', wb, eb⟩ := bb hdir
      obtain ⟨Si', Si, wa, ea⟩ := ba hdir
      refine ⟨fun u => So (Si u), fun y => ?_, comp s.max Si So ⟨hlt.le, le_rfl⟩ wa.inn wb.out, ?_⟩
      · rw [hprop, if_neg (by change ¬ s.dir = _; rw [hdir]; decide)]; exact (eb _).1.trans (congrArg So (ea _).2)
      · intro haa hbb
        rcases haa with haa | haa
        · have hb2 : s.max ≤ b := by
            rcases hbb with hbb | hbb
            · exact absurd (Or.inr ⟨haa, hbb⟩) hskip
            · exact hbb
          have e1 : cl s.min s.max a = s.min := cl_low haa
          have e2 : cl s.min s.max b = s.max := cl_high hlt.le hb2
          have hid := (wb.idd e2).1
          have := wa.innF (Or.inl haa)
          rw [hid, e1, e2, ← hh, abs_of_pos h0]
          rw [e1] at this
          exact this.mono eF
        · have hb2 : b ≤ s.min := by
            rcases hbb with hbb | hbb
            · exact hbb
            · exact absurd (Or.inl ⟨haa, hbb⟩) hskip
          have e1 : cl s.min s.max a = s.max := cl_high hlt.le haa
          have e2 : cl s.min s.max b = s.min := cl_low hb2
          have hid := (wa.idd e1).2
          have := wb.outF (Or.inl hb2)
          rw [hid, e1, e2, abs_sub_comm, ← hh, abs_of_pos h0]
          rw [e2] at this
          exact this.mono eF

end Verif.Solver
