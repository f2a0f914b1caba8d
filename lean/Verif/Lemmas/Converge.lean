import Verif.Lemmas.Chain
import Verif.Spec.Problem

/-!
# Convergence of `propagate`
-/
namespace Verif.Solver
open Verif.Mesh Verif.YT Verif.CalcT Verif.Propag Verif.Formulas Verif.Legendre Verif.Spec

/-- position of `x` clipped to the `k`-th sector -/
noncomputable def pos (P : Prob ℝ) (x : ℝ) (k : ℕ) : ℝ := match P.secs[k]? with
  | some s => cl s.min s.max x
  | none => 0

theorem pos_eq (P : Prob ℝ) (x : ℝ) {k : ℕ} (hk : k < P.secs.length) : pos P x k = cl (P.secs[k]).min (P.secs[k]).max x := by
  unfold pos; rw [List.getElem?_eq_getElem hk]

theorem linked_up {p q : ℕ → ℝ} : ∀ (m i : ℕ), (∀ k, i ≤ k → k < i + m → q k = p (k + 1)) → Linked p q (p i) (List.range' i (m + 1)) (q (i + m))
  | 0, i, _ => by simp [Linked]
  | m + 1, i, h => by
    rw [List.range'_succ]
    refine ⟨rfl, ?_⟩
    rw [h i le_rfl (by omega)]
    have := linked_up m (i + 1) (fun k h1 h2 => h k (by omega) (by omega))
    rwa [show i + 1 + m = i + (m + 1) by ring] at this

theorem linked_down {p q : ℕ → ℝ} : ∀ (m j : ℕ), (∀ k, j ≤ k → k < j + m → q (k + 1) = p k) →
    Linked p q (p (j + m)) (List.range' j (m + 1)).reverse (q j)
  | 0, j, _ => by simp [Linked]
  | m + 1, j, h => by
    rw [List.range'_concat, List.reverse_append]
    simp only [List.reverse_singleton, List.singleton_append]
    have e : j + 1 * (m + 1) = j + (m + 1) := by ring
    rw [e]
    refine ⟨rfl, ?_⟩
    have := linked_down m j (fun k h1 h2 => h k h1 (by omega))
    rwa [← h (j + m) (by omega) (by omega)] at this

theorem srange {P : Prob ℝ} (hm : IsMesh P.mesh P.dmin P.dmax) {i : Nat} (hi : i < P.secs.length) :
    P.dmin ≤ (P.secs[i]).min ∧ (P.secs[i]).min ≤ (P.secs[i]).max ∧ (P.secs[i]).max ≤ P.dmax := by
  have hi' : i < P.mesh.length := by rw [mesh_length]; exact hi
  have ho := hm.ordered ((P.secs[i]).toSec) (by rw [← mesh_get P _ hi]; exact List.getElem_mem _)
  have h1 := hm.sector_in_domain (x := (P.secs[i]).max) hi'
    (by rw [mesh_get P i hi]; simpa [Sec.contains] using ho)
  have h2 := hm.sector_in_domain (x := (P.secs[i]).min) hi'
    (by rw [mesh_get P i hi]; simpa [Sec.contains] using ho)
  simp only [domainContains, ccmp_le, Bool.and_eq_true, decide_eq_true_eq] at h1 h2 ho
  exact ⟨h2.1, ho, h1.2⟩

theorem sjoined {P : Prob ℝ} (hm : IsMesh P.mesh P.dmin P.dmax) {i : Nat} (hi : i + 1 < P.secs.length) :
    (P.secs[i]'(by omega)).max = (P.secs[i + 1]).min := by
  have := hm.step i (by rw [mesh_length]; exact hi)
  rw [mesh_get P i (by omega), mesh_get P (i + 1) hi] at this
  simp only [ccmp_le, decide_eq_true_eq] at this
  exact le_antisymm this.1 this.2

theorem smono {P : Prob ℝ} (hm : IsMesh P.mesh P.dmin P.dmax) {i j : Nat} (hij : i ≤ j) (hj : j < P.secs.length) :
    (P.secs[i]'(by omega)).min ≤ (P.secs[j]).min ∧ (P.secs[i]'(by omega)).max ≤ (P.secs[j]).max := by
  have h1 := hm.le_min hij (by rw [mesh_length]; exact hj)
  have h2 := hm.le_max hij (by rw [mesh_length]; exact hj)
  rw [mesh_get P i (by omega), mesh_get P j hj] at h1 h2
  simp only [ccmp_le, decide_eq_true_eq] at h1 h2
  exact ⟨h1, h2⟩

/-- A mesh point lies in no open sector. -/
theorem mesh_point {P : Prob ℝ} (hm : IsMesh P.mesh P.dmin P.dmax) {m k : ℕ} (hm' : m < P.secs.length) (hk : k < P.secs.length) {x : ℝ}
    (hx : x = (P.secs[m]).min ∨ x = (P.secs[m]).max) : x ≤ (P.secs[k]).min ∨ (P.secs[k]).max ≤ x := by
  have o := srange hm hm'
  have ok := srange hm hk
  rcases lt_trichotomy k m with h | h | h
  · right
    have h1 := sjoined hm (i := k) (by omega)
    have h2 := (smono hm (show k + 1 ≤ m by omega) hm').1
    rcases hx with rfl | rfl <;> linarith [o.2.1]
  · subst h
    rcases hx with rfl | rfl
    · exact Or.inl le_rfl
    · exact Or.inr le_rfl
  · left
    have h1 := sjoined hm (i := m) (by omega)
    have h2 := (smono hm (show m + 1 ≤ k by omega) hk).1
    rcases hx with rfl | rfl <;> linarith [o.2.1]

theorem cl_mono {a b x y : ℝ} (h : x ≤ y) : cl a b x ≤ cl a b y := max_le_max le_rfl (min_le_min h le_rfl)

/-- The walk of `propagate`: the pieces join up, each is inside its sector, and only the first starts and only the last ends
strictly inside. -/
theorem walk_linked {P : Prob ℝ} (hm : IsMesh P.mesh P.dmin P.dmax) {a b : ℝ} {i j : ℕ} (hi : i < P.secs.length) (hj : j < P.secs.length)
    (hia : (P.secs[i]).contains a = true) (hjb : (P.secs[j]).contains b = true)
    (hup : a < b → i ≤ j ∧ ∀ k (hk : k < P.secs.length), i ≤ k → k < j → (P.secs[k]).max ≤ b)
    (hdown : ¬ a < b → j ≤ i ∧ ∀ k (hk : k < P.secs.length), k ≤ i → j < k → b ≤ (P.secs[k]).min) :
    Linked (pos P a) (pos P b) a (visited i j) b ∧
    ∀ k ∈ visited i j, ∃ hk : k < P.secs.length, (k ≠ i → a ≤ (P.secs[k]).min ∨ (P.secs[k]).max ≤ a) ∧
      (k ≠ j → b ≤ (P.secs[k]).min ∨ (P.secs[k]).max ≤ b) := by
  simp only [Sec.contains, ccmp_le, Bool.and_eq_true, decide_eq_true_eq] at hia hjb
  have pa : pos P a i = a := by rw [pos_eq P a hi]; exact cl_of_mem ⟨hia.2, hia.1⟩
  have pb : pos P b j = b := by rw [pos_eq P b hj]; exact cl_of_mem ⟨hjb.2, hjb.1⟩
  by_cases hab : a < b
  · obtain ⟨hij, hk⟩ := hup hab
    have hv : visited i j = List.range' i (j - i + 1) := by simp [visited, hij]
    constructor
    · have := linked_up (p := pos P a) (q := pos P b) (j - i) i (fun k h1 h2 => by
        have hk1 : k < P.secs.length := by omega
        have hk2 : k + 1 < P.secs.length := by omega
        rw [pos_eq P b hk1, pos_eq P a hk2, cl_high (srange hm hk1).2.1 (hk k hk1 h1 (by omega)), sjoined hm hk2, cl_low]
        have h3 := (smono hm h1 hk1).2
        have h4 := sjoined hm hk2
        linarith [hia.1])
      rw [pa, show i + (j - i) = j by omega, pb] at this
      rw [hv]; exact this
    · intro k hkm
      rw [hv, List.mem_range'_1] at hkm
      have hk1 : k < P.secs.length := by omega
      refine ⟨hk1, fun hne => Or.inl ?_, fun hne => Or.inr (hk k hk1 hkm.1 (by omega))⟩
      have h3 := (smono hm (show i + 1 ≤ k by omega) hk1).1
      have h4 := sjoined hm (i := i) (by omega)
      linarith [hia.1]
  · obtain ⟨hij, hk⟩ := hdown hab
    have hv : visited i j = (List.range' j (i - j + 1)).reverse := by
      rcases Nat.eq_or_lt_of_le hij with h | h
      · subst h; simp [visited]
      · rw [visited, if_neg (by omega)]
    constructor
    · have := linked_down (p := pos P a) (q := pos P b) (i - j) j (fun k h1 h2 => by
        have hk1 : k < P.secs.length := by omega
        have hk2 : k + 1 < P.secs.length := by omega
        rw [pos_eq P b hk2, pos_eq P a hk1, cl_low (hk (k + 1) hk2 (by omega) (by omega)), ← sjoined hm hk2, cl_high (srange hm hk1).2.1]
        have h3 := (smono hm (show k + 1 ≤ i by omega) hi).1
        have h4 := sjoined hm hk2
        linarith [hia.2])
      rw [show j + (i - j) = i by omega, pa, pb] at this
      rw [hv]; exact this
    · intro k hkm
      rw [hv, List.mem_reverse, List.mem_range'_1] at hkm
      have hk1 : k < P.secs.length := by omega
      refine ⟨hk1, fun hne => Or.inr ?_, fun hne => Or.inl (hk k hk1 (by omega) (by omega))⟩
      have h3 := (smono hm (show k + 1 ≤ i by omega) hi).1
      have h4 := sjoined hm (i := k) (by omega)
      linarith [hia.2]

theorem construct_secs (eps : ℝ) (eta : Nat → ℝ → Nat → ℝ) (vs : Sec ℝ → ℕ → ℝ) (dmin dmax : ℝ) (r : BuildResult ℝ) :
    ∃ v0M, (constructOf eps eta vs dmin dmax r).secs = r.sectors.map (fun s => sectorOf eps eta (vs s) v0M s) := ⟨_, rfl⟩

theorem construct_mesh (eps : ℝ) (eta : Nat → ℝ → Nat → ℝ) (vs : Sec ℝ → ℕ → ℝ) (dmin dmax : ℝ) (r : BuildResult ℝ) :
    (constructOf eps eta vs dmin dmax r).mesh = r.sectors := by
  obtain ⟨v, hv⟩ := construct_secs eps eta vs dmin dmax r
  unfold Prob.mesh
  rw [hv, List.map_map]
  exact List.map_id r.sectors

theorem visited_length {i j n : ℕ} (hi : i < n) (hj : j < n) : (visited i j).length ≤ n := by
  unfold visited
  split <;> simp <;> omega

theorem mesh_isBoundary {secs : List (Sec ℝ)} {x : ℝ} (h : IsBoundary (bounds secs) x) : ∃ s ∈ secs, x = s.min ∨ x = s.max := by
  obtain ⟨p, hp, h⟩ := h
  unfold bounds at hp
  obtain ⟨s, hs, rfl⟩ := List.mem_map.mp hp
  exact ⟨s, hs, by rcases h with h | h <;> [left; right] <;> exact h.symm⟩

/-- **Convergence of `propagate`**, for inexact initial values. -/
theorem converge (M : ℝ) (hM : 1 ≤ M) : ∃ C : ℝ, 1 ≤ C ∧ ∀ (eps σ τ ε : ℝ) (eta : ℕ → ℝ → ℕ → ℝ) (vs : Sec ℝ → ℕ → ℝ) (W : Sec ℝ → ℝ → ℝ) (dmin dmax H E pi : ℝ) (r : BuildResult ℝ)
    (y dy : ℝ → ℝ) (useH : Bool) (a b : ℝ) (c : Y ℝ),
    FitMesh eps M H W dmin dmax r.sectors → EtaWithin σ eta → CoeffsWithin τ W r.sectors vs → τ + r.sectors.length * σ ≤ ε → ε ≤ 1 →
    dmax - dmin ≤ M → |E| ≤ M → SolvesMesh W E r.sectors y dy →
    a ∈ Set.Icc dmin dmax → b ∈ Set.Icc dmin dmax →
    ∃ res, (constructOf eps eta vs dmin dmax r).propagate pi E c a b useH = .ok res ∧
      (∀ d, 0 ≤ d → d ≤ 1 → (∀ s ∈ r.sectors, Skips eps d s.min s.max a ∧ Skips eps d s.min s.max b) →
        sz (pr res.1 - (y b, dy b)) ≤ C * (sz (pr c - (y a, dy a)) + (H ^ min 15 (ord useH) + ε + d) * sz (y a, dy a))) ∧
      (IsBoundary (bounds r.sectors) a → IsBoundary (bounds r.sectors) b →
        sz (pr res.1 - (y b, dy b)) ≤ C * (sz (pr c - (y a, dy a)) + (H ^ ord useH + ε) * sz (y a, dy a))) := by
  obtain ⟨C, hC, key⟩ := sector_near M hM
  have hM0 : 0 ≤ M := by linarith
  -- the constant
  refine ⟨Real.exp (2 * M * M + (3 * C * M + 6 * C)) * (3 * C * M + 6 * C), ?_, ?_⟩
  · have h1 : 1 ≤ Real.exp (2 * M * M + (3 * C * M + 6 * C)) := Real.one_le_exp (by positivity)
    have h2 : 1 ≤ 3 * C * M + 6 * C := by nlinarith
    exact one_le_mul_of_one_le_of_one_le h1 h2
  intro eps σ τ ε eta vs W dmin dmax H E pi r y dy useH a b c hf he hv hε hε1 hd hE hy ha hb
  set P := constructOf eps eta vs dmin dmax r with hP
  have hPm : P.mesh = r.sectors := construct_mesh _ _ _ _ _ _
  have hPmin : P.dmin = dmin := rfl
  have hPmax : P.dmax = dmax := rfl
  have hm : IsMesh P.mesh P.dmin P.dmax := by rw [hPm]; exact hf.mesh
  obtain ⟨v0M, hsecs⟩ := construct_secs eps eta vs dmin dmax r
  rw [← hP] at hsecs
  have hA' : domainContains P.dmin P.dmax a = true := by rw [hPmin, hPmax]; simpa [domainContains] using ha
  have hB' : domainContains P.dmin P.dmax b = true := by rw [hPmin, hPmax]; simpa [domainContains] using hb
  obtain ⟨i, j, hi, hj, hia, hjb, hup, hdown, heq⟩ := propagate_closed P hm pi a b useH hA' hB'
  simp only [ccmp_le, ccmp_lt, decide_eq_true_eq, decide_eq_false_iff_not] at hup hdown
  obtain ⟨hlink, hin⟩ := walk_linked hm hi hj hia hjb hup hdown
  refine ⟨_, heq E c, ?_⟩
  rw [fold_fst]
  have hH0 : 0 < H := by
    have h0 : 0 < r.sectors.length := hf.mesh.length_pos
    have := hf.wide _ (List.getElem_mem h0)
    have := hf.narrow _ (List.getElem_mem h0)
    have := hf.eps_nonneg
    linarith
  have hH1 := hf.small
  have hσ0 := he.nonneg
  have hN0 : 0 < r.sectors.length := hf.mesh.length_pos
  have hτ0 : 0 ≤ τ := (hv _ (List.getElem_mem hN0)).nonneg
  have hN1 : (1 : ℝ) ≤ r.sectors.length := by exact_mod_cast hN0
  have hσN : σ ≤ r.sectors.length * σ := le_mul_of_one_le_left hσ0 hN1
  have hε0 : 0 ≤ ε := by linarith
  have hσ1 : σ ≤ 1 := by linarith
  have hτ1 : τ ≤ 1 := by linarith
  -- facts on one sector
  have sec : ∀ k ∈ visited i j, ∃ hk : k < P.secs.length, ∃ s ∈ r.sectors, P.secs[k] = sectorOf eps eta (vs s) v0M s ∧
      s.max - s.min ≤ H ∧ pos P a k = cl s.min s.max a ∧ pos P b k = cl s.min s.max b ∧ s.min ≤ s.max ∧
      (∃ S : ℝ × ℝ → ℝ × ℝ, (∀ y, pr (P.stepY E useH a b y k) = S (pr y)) ∧
        (∀ d, 0 ≤ d → d ≤ 1 → Skips eps d s.min s.max a → Skips eps d s.min s.max b →
          Near (W s) E s.min s.max S (pos P a k) (pos P b k) (C * (H ^ 15 + ε + d))) ∧
        (a ≤ s.min ∨ s.max ≤ a → b ≤ s.min ∨ s.max ≤ b →
          Near (W s) E s.min s.max S (pos P a k) (pos P b k) (C * ((H ^ ord useH + τ) * |pos P b k - pos P a k| + σ)))) := by
    intro k hk
    obtain ⟨hk1, -⟩ := hin k hk
    have hmem : P.secs[k] ∈ P.secs := List.getElem_mem hk1
    have hkr : k < r.sectors.length := by rw [hsecs, List.length_map] at hk1; exact hk1
    have hsk : P.secs[k] = sectorOf eps eta (vs (r.sectors[k])) v0M (r.sectors[k]) := by
      simp only [hsecs, List.getElem_map]
    have hs : r.sectors[k] ∈ r.sectors := List.getElem_mem hkr
    set s := r.sectors[k]
    have hw := hf.wide s hs
    have hn := hf.narrow s hs
    have hle : s.min ≤ s.max := by
      have := hf.eps_nonneg
      linarith
    have p1 : pos P a k = cl s.min s.max a := by rw [pos_eq P a hk1, hsk]; rfl
    have p2 : pos P b k = cl s.min s.max b := by rw [pos_eq P b hk1, hsk]; rfl
    have hh0 : 0 ≤ s.max - s.min := by linarith
    have key' := fun d h0 h1 k1 k2 => key eps σ τ d eta (vs s) (W s) v0M E s useH a b he hσ1 hτ1 h0 h1 k1 k2 hf.eps_nonneg hw (hn.trans hH1) (hf.smooth s hs) (hv s hs) hE (hf.directed s hs)
    have sk1 : ∀ x, Skips eps 1 s.min s.max x := fun x _ _ =>
      ⟨fun h => h.trans (by linarith), fun h => h.trans (by linarith)⟩
    obtain ⟨S, hS, -, n2⟩ := key' 1 zero_le_one le_rfl (sk1 a) (sk1 b)
    refine ⟨hk1, s, hs, hsk, hn, p1, p2, hle, S, fun y => ?_, fun d h0 h1 ka kb => ?_, fun h1 h2 => ?_⟩
    · unfold Prob.stepY
      rw [List.getElem?_eq_getElem hk1]
      dsimp only
      rw [hsk]; exact hS y
    · rw [p1, p2]
      obtain ⟨S', hS', n1, -⟩ := key' d h0 h1 ka kb
      have eS : S' = S := by
        funext u
        have := (hS' ⟨u.1, u.2, 0, 0⟩).symm.trans (hS ⟨u.1, u.2, 0, 0⟩)
        simpa [pr] using this
      rw [eS] at n1
      refine n1.mono (mul_le_mul_of_nonneg_left ?_ (by linarith))
      have i1 := pow_le_pow_left₀ hh0 hn 15
      have i2 : (s.max - s.min) * τ ≤ 1 * τ := mul_le_mul_of_nonneg_right (hn.trans hH1) hτ0
      linarith
    · rw [p1, p2]
      refine (n2 h1 h2).mono (mul_le_mul_of_nonneg_left (add_le_add (mul_le_mul_of_nonneg_right
        (add_le_add (pow_le_pow_left₀ hh0 hn _) le_rfl) (abs_nonneg _)) le_rfl) (by linarith))
  have hX : ((visited i j).map fun k => |pos P b k - pos P a k|).sum ≤ M := by
    have hsum := hlink.sum
    have hmono : ∀ k ∈ visited i j, (a ≤ b → pos P a k ≤ pos P b k) ∧ (b ≤ a → pos P b k ≤ pos P a k) := by
      intro k hk
      obtain ⟨-, s, -, -, -, p1, p2, -⟩ := sec k hk
      rw [p1, p2]
      exact ⟨cl_mono, cl_mono⟩
    rcases le_total a b with hab | hab
    · have : ((visited i j).map fun k => |pos P b k - pos P a k|) = (visited i j).map fun k => pos P b k - pos P a k :=
        List.map_congr_left (fun k hk => abs_of_nonneg (by linarith [(hmono k hk).1 hab]))
      rw [this, hsum]; linarith [ha.1, hb.2]
    · have : ((visited i j).map fun k => |pos P b k - pos P a k|) = (visited i j).map fun k => -(pos P b k - pos P a k) :=
        List.map_congr_left (fun k hk => abs_of_nonpos (by linarith [(hmono k hk).2 hab]))
      have hneg : ((visited i j).map fun k => -(pos P b k - pos P a k)).sum = -((visited i j).map fun k => pos P b k - pos P a k).sum := by
        generalize visited i j = l
        induction l with
        | nil => simp
        | cons k l ih => simp only [List.map_cons, List.sum_cons, ih]; ring
      rw [this, hneg, hsum]; linarith [ha.2, hb.1]
  have hsol : ∀ s ∈ r.sectors, ContinuousOn (W s) (Set.Icc s.min s.max) ∧ (∀ x ∈ Set.Icc s.min s.max, |W s x - E| ≤ 2 * M) ∧ SolvesOn (W s) E s.min s.max y dy :=
    fun s hs => ⟨(hf.smooth s hs).continuousOn, pot_bound (hf.smooth s hs) hE, hy s hs⟩
  have finish : ∀ (e : ℕ → ℝ) (ρ : ℝ), 0 ≤ ρ → ρ ≤ 3 →
      (∀ k ∈ visited i j, 0 ≤ e k ∧ ∃ s ∈ r.sectors, ∃ S : ℝ × ℝ → ℝ × ℝ, (∀ y, pr (P.stepY E useH a b y k) = S (pr y)) ∧
        Near (W s) E s.min s.max S (pos P a k) (pos P b k) (e k) ∧ pos P a k = cl s.min s.max a ∧ pos P b k = cl s.min s.max b ∧ s.min ≤ s.max) →
      ((visited i j).map e).sum ≤ (C * M + 2 * C) * ρ →
      sz (pr ((visited i j).foldl (P.stepY E useH a b) c) - (y b, dy b)) ≤ Real.exp (2 * M * M + (3 * C * M + 6 * C)) * (3 * C * M + 6 * C) *
        (sz (pr c - (y a, dy a)) + ρ * sz (y a, dy a)) := by
    intro e ρ hρ0 hρ2 hk hsum
    have := chain (K := 2 * M) (by linarith) (y := y) (dy := dy) (step := P.stepY E useH a b) (p := pos P a) (q := pos P b) (e := e) c
      (fun k hkm => by
        obtain ⟨e0, s, hs, S, h1, h2, p1, p2, hle⟩ := hk k hkm
        refine ⟨e0, W s, E, s.min, s.max, S, h1, h2, (hsol s hs).1, (hsol s hs).2.1, ?_, ?_, (hsol s hs).2.2⟩
        · rw [p1]; exact cl_mem hle a
        · rw [p2]; exact cl_mem hle b) hlink
    refine this.trans ?_
    have hS2 : ((visited i j).map e).sum ≤ 3 * C * M + 6 * C := by
      have : (C * M + 2 * C) * ρ ≤ (C * M + 2 * C) * 3 := mul_le_mul_of_nonneg_left hρ2 (by positivity)
      linarith
    have x1 : Real.exp (2 * M * ((visited i j).map fun k => |pos P b k - pos P a k|).sum + ((visited i j).map e).sum) ≤
        Real.exp (2 * M * M + (3 * C * M + 6 * C)) := by
      refine Real.exp_le_exp.mpr (add_le_add (mul_le_mul_of_nonneg_left hX (by positivity)) hS2)
    have d0 := sz_nonneg (pr c - (y a, dy a))
    have n0 := sz_nonneg (y a, dy a)
    have x2 : sz (pr c - (y a, dy a)) + ((visited i j).map e).sum * sz (y a, dy a) ≤ (3 * C * M + 6 * C) * (sz (pr c - (y a, dy a)) + ρ * sz (y a, dy a)) := by
      have a1 : ((visited i j).map e).sum * sz (y a, dy a) ≤ (C * M + 2 * C) * ρ * sz (y a, dy a) := mul_le_mul_of_nonneg_right hsum n0
      have a2 : sz (pr c - (y a, dy a)) ≤ (3 * C * M + 6 * C) * sz (pr c - (y a, dy a)) := le_mul_of_one_le_left d0 (by nlinarith)
      have a3 : 0 ≤ (C * M + 2 * C) * ρ * sz (y a, dy a) := by positivity
      nlinarith
    have e0 : 0 ≤ sz (pr c - (y a, dy a)) + ((visited i j).map e).sum * sz (y a, dy a) := by
      have : 0 ≤ ((visited i j).map e).sum := List.sum_nonneg (by
        intro x hx
        obtain ⟨m, hm, rfl⟩ := List.mem_map.mp hx
        exact (hk m hm).1)
      positivity
    calc _ ≤ Real.exp (2 * M * M + (3 * C * M + 6 * C)) * ((3 * C * M + 6 * C) * (sz (pr c - (y a, dy a)) + ρ * sz (y a, dy a))) :=
          mul_le_mul x1 x2 e0 (Real.exp_pos _).le
      _ = _ := by ring
  have q1 : 0 ≤ H ^ ord useH := by positivity
  have o14 : H ^ ord useH ≤ H ^ min 15 (ord useH) := pow_le_pow_of_le_one hH0.le hH1 (min_le_right _ _)
  have o15 : H ^ 15 ≤ H ^ min 15 (ord useH) := pow_le_pow_of_le_one hH0.le hH1 (min_le_left _ _)
  have o1 : H ^ min 15 (ord useH) ≤ 1 := pow_le_one₀ hH0.le hH1
  have o2 : H ^ ord useH ≤ 1 := pow_le_one₀ hH0.le hH1
  have q0 : 0 ≤ H ^ 15 := by positivity
  have hiN : i < r.sectors.length := by rw [hsecs, List.length_map] at hi; exact hi
  have hjN : j < r.sectors.length := by rw [hsecs, List.length_map] at hj; exact hj
  have sumX : ((visited i j).map fun k => C * ((H ^ ord useH + τ) * |pos P b k - pos P a k| + σ)).sum ≤ C * M * (H ^ ord useH + ε) := by
    have e : ((visited i j).map fun k => C * ((H ^ ord useH + τ) * |pos P b k - pos P a k| + σ)).sum =
        C * (H ^ ord useH + τ) * ((visited i j).map fun k => |pos P b k - pos P a k|).sum + C * ((visited i j).length * σ) := by
      generalize visited i j = l
      induction l with
      | nil => simp
      | cons k l ih => simp only [List.map_cons, List.sum_cons, ih, List.length_cons]; push_cast; ring
    rw [e]
    have h1 := mul_le_mul_of_nonneg_left hX (show 0 ≤ C * (H ^ ord useH + τ) by positivity)
    have h2 : ((visited i j).length : ℝ) * σ ≤ r.sectors.length * σ :=
      mul_le_mul_of_nonneg_right (by exact_mod_cast visited_length hiN hjN) hσ0
    have h3 : ((visited i j).length : ℝ) * σ ≤ M * (r.sectors.length * σ) := h2.trans (le_mul_of_one_le_left (by positivity) hM)
    have h4 := mul_le_mul_of_nonneg_left h3 (show 0 ≤ C by linarith)
    have h5 := mul_le_mul_of_nonneg_left hε (show 0 ≤ C * M by positivity)
    have h6 : C * M * (H ^ ord useH + ε) = C * M * H ^ ord useH + C * M * ε := by ring
    have h7 : C * (H ^ ord useH + τ) * M + C * (M * (r.sectors.length * σ)) = C * M * H ^ ord useH + C * M * (τ + r.sectors.length * σ) := by ring
    linarith
  constructor
  · -- any points: at most two partial sectors
    intro d hd0 hd1 hskip
    set ρ := H ^ min 15 (ord useH) + ε + d with hρ
    have hρ0 : 0 ≤ ρ := by positivity
    have f1 : H ^ ord useH + ε ≤ ρ := by rw [hρ]; linarith
    refine finish (fun k => C * ((H ^ ord useH + τ) * |pos P b k - pos P a k| + σ) + ((if k = i then C * ρ else 0) + (if k = j then C * ρ else 0))) ρ hρ0
      (by rw [hρ]; linarith) ?_ ?_
    · intro k hk
      obtain ⟨hk1, s, hs, hsk, hn, p1, p2, hle, S, hS, n1, n2⟩ := sec k hk
      obtain ⟨hk2, c1, c2⟩ := hin k hk
      have hts : (P.secs[k]).toSec = s := by rw [hsk]; rfl
      rw [hts] at c1 c2
      have i1 : 0 ≤ (if k = i then C * ρ else 0) := by split <;> positivity
      have i2 : 0 ≤ (if k = j then C * ρ else 0) := by split <;> positivity
      have i3 : 0 ≤ C * ((H ^ ord useH + τ) * |pos P b k - pos P a k| + σ) := by positivity
      refine ⟨by linarith, s, hs, S, hS, ?_, p1, p2, hle⟩
      by_cases hki : k = i ∨ k = j
      · refine (n1 d hd0 hd1 (hskip s hs).1 (hskip s hs).2).mono ?_
        have : C * (H ^ 15 + ε + d) ≤ C * ρ := mul_le_mul_of_nonneg_left (by rw [hρ]; linarith) (by linarith)
        rcases hki with h | h
        · rw [if_pos h]; linarith
        · rw [if_pos h]; linarith
      · push Not at hki
        refine (n2 (c1 hki.1) (c2 hki.2)).mono ?_
        linarith
    · rw [List.sum_map_add, List.sum_map_add]
      have h2 := sum_single_le (visited_nodup i j) i (c := C * ρ) (by positivity)
      have h3 := sum_single_le (visited_nodup i j) j (c := C * ρ) (by positivity)
      have h4 := mul_le_mul_of_nonneg_left f1 (show 0 ≤ C * M by positivity)
      have e : (C * M + 2 * C) * ρ = C * M * ρ + (C * ρ + C * ρ) := by ring
      rw [e]; linarith
  · intro hba hbb
    have bd : ∀ {x : ℝ}, IsBoundary (bounds r.sectors) x → ∀ s ∈ r.sectors, x ≤ s.min ∨ s.max ≤ x := by
      intro x hx s hs
      obtain ⟨s', hs', hx'⟩ := mesh_isBoundary hx
      obtain ⟨k, hk, rfl⟩ := List.getElem_of_mem hs
      obtain ⟨m, hm', rfl⟩ := List.getElem_of_mem hs'
      have l1 : k < P.secs.length := by rw [hsecs, List.length_map]; exact hk
      have l2 : m < P.secs.length := by rw [hsecs, List.length_map]; exact hm'
      have e1 : (P.secs[k]).toSec = r.sectors[k] := by simp only [hsecs, List.getElem_map]; rfl
      have e2 : (P.secs[m]).toSec = r.sectors[m] := by simp only [hsecs, List.getElem_map]; rfl
      have := mesh_point hm l2 l1 (x := x) (by rw [e2]; exact hx')
      rwa [e1] at this
    have hρ0 : 0 ≤ H ^ ord useH + ε := by positivity
    refine finish (fun k => C * ((H ^ ord useH + τ) * |pos P b k - pos P a k| + σ)) _ hρ0 (by linarith) ?_ ?_
    · intro k hk
      obtain ⟨hk1, s, hs, hsk, hn, p1, p2, hle, S, hS, n1, n2⟩ := sec k hk
      exact ⟨by positivity, s, hs, S, hS, n2 (bd hba s hs) (bd hbb s hs), p1, p2, hle⟩
    · have : 0 ≤ 2 * C * (H ^ ord useH + ε) := by positivity
      have e : (C * M + 2 * C) * (H ^ ord useH + ε) = C * M * (H ^ ord useH + ε) + 2 * C * (H ^ ord useH + ε) := by ring
      rw [e]; linarith

end Verif.Solver
