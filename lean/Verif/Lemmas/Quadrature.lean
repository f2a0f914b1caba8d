import Verif.Lemmas.FormulaKernel
import Verif.Lemmas.LegendreTable

/-! # Integrals of products of polynomials, and the kernel checks of the quadrature tables -/
namespace Verif.Legendre
open scoped BigOperators

theorem list_sum_range {M : Type} [AddCommMonoid M] (f : ℕ → M) (n : ℕ) : ((List.range n).map f).sum = ∑ j ∈ Finset.range n, f j := by
  induction n with
  | zero => simp
  | succ n ih => rw [List.range_succ, List.map_append, List.sum_append, ih, Finset.sum_range_succ]; simp

/-- a common multiple of `1 … 60` -/
def L60 : ℤ := 9690712164777231700912800

theorem L60_dvd : ∀ n : ℕ, n < 60 → ((n : ℤ) + 1) * (L60 / ((n : ℤ) + 1)) = L60 := by decide +kernel

theorem div_L60 {n : ℕ} (hn : n < 60) : ((L60 / ((n : ℤ) + 1) : ℤ) : ℝ) = (L60 : ℝ) / ((n : ℝ) + 1) := by
  have := L60_dvd n hn
  have h : ((n : ℝ) + 1) * ((L60 / ((n : ℤ) + 1) : ℤ) : ℝ) = L60 := by exact_mod_cast this
  have hp : (n : ℝ) + 1 ≠ 0 := by positivity
  field_simp
  linarith

theorem L60_pos : (0 : ℝ) < L60 := by unfold L60; norm_num

/-- `L60 ∫ (Σ c_a t^a)(Σ d_b t^b)` as an integer -/
def dotL (n m : ℕ) (c d : ℕ → ℤ) : ℤ :=
  ((List.range n).map (fun a => ((List.range m).map (fun b => c a * d b * (L60 / ((a + b : ℕ) + 1)))).sum)).sum

theorem integral_prod (n m : ℕ) (c d : ℕ → ℝ) :
    ∫ t in (0 : ℝ)..1, (∑ a ∈ Finset.range n, c a * t ^ a) * (∑ b ∈ Finset.range m, d b * t ^ b) =
      ∑ a ∈ Finset.range n, ∑ b ∈ Finset.range m, c a * d b / ((a + b : ℕ) + 1) := by
  have e : ∀ t : ℝ, (∑ a ∈ Finset.range n, c a * t ^ a) * (∑ b ∈ Finset.range m, d b * t ^ b) =
      ∑ a ∈ Finset.range n, ∑ b ∈ Finset.range m, c a * d b * t ^ (a + b) := by
    intro t
    rw [Finset.sum_mul_sum]
    exact Finset.sum_congr rfl (fun a _ => Finset.sum_congr rfl (fun b _ => by rw [pow_add]; ring))
  simp only [e]
  rw [intervalIntegral.integral_finsetSum]
  · refine Finset.sum_congr rfl (fun a _ => ?_)
    rw [intervalIntegral.integral_finsetSum]
    · refine Finset.sum_congr rfl (fun b _ => ?_)
      rw [intervalIntegral.integral_const_mul, integral_pow]
      simp
      ring
    · intro b _
      exact (by fun_prop : Continuous fun t : ℝ => c a * d b * t ^ (a + b)).intervalIntegrable _ _
  · intro a _
    exact (by fun_prop : Continuous fun t : ℝ => ∑ b ∈ Finset.range m, c a * d b * t ^ (a + b)).intervalIntegrable _ _

theorem dotL_eq (n m : ℕ) (hnm : n + m ≤ 61) (c d : ℕ → ℤ) :
    (dotL n m c d : ℝ) = L60 * ∫ t in (0 : ℝ)..1, (∑ a ∈ Finset.range n, (c a : ℝ) * t ^ a) * (∑ b ∈ Finset.range m, (d b : ℝ) * t ^ b) := by
  rw [integral_prod, dotL]
  simp only [list_sum_range]
  push_cast
  rw [Finset.mul_sum]
  refine Finset.sum_congr rfl (fun a ha => ?_)
  rw [Finset.mul_sum]
  refine Finset.sum_congr rfl (fun b hb => ?_)
  rw [Finset.mem_range] at ha hb
  have := div_L60 (n := a + b) (by omega)
  push_cast at this ⊢
  rw [this]; ring

set_option maxRecDepth 100000 in
theorem tab_orth : (List.range 16).all (fun i => (List.range 16).all (fun j =>
    (2 * (i : ℤ) + 1) * dotL 16 16 (poly i) (poly j) == if i = j then L60 else 0)) = true := by decide +kernel

/-- coefficients of `(2t - 1)^m` -/
def powC (m l : ℕ) : ℤ := (m.choose l : ℤ) * 2 ^ l * (-1) ^ (m - l)

theorem powC_eq (m : ℕ) (t : ℝ) : (2 * t - 1) ^ m = ∑ l ∈ Finset.range (m + 1), (powC m l : ℝ) * t ^ l := by
  rw [sub_eq_add_neg, add_pow]
  refine Finset.sum_congr rfl (fun l _ => ?_)
  unfold powC; push_cast; rw [mul_pow]; ring

/-- `L60 (2i + 1) ∫ (2t - 1)^m P_i` (row `m`, column `i`) -/
def momTab : List (List ℤ) := [
  [9690712164777231700912800, 0, 0, 0, 0, 0, 0, 0, 0, 0, 0, 0, 0, 0, 0, 0],
  [0, 9690712164777231700912800, 0, 0, 0, 0, 0, 0, 0, 0, 0, 0, 0, 0, 0, 0],
  [3230237388259077233637600, 0, 6460474776518154467275200, 0, 0, 0, 0, 0, 0, 0, 0, 0, 0, 0, 0, 0],
  [0, 5814427298866339020547680, 0, 3876284865910892680365120, 0, 0, 0, 0, 0, 0, 0, 0, 0, 0, 0, 0],
  [1938142432955446340182560, 0, 5537549808444132400521600, 0, 2215019923377652960208640, 0, 0, 0, 0, 0, 0, 0, 0, 0, 0, 0],
  [0, 4153162356333099300391200, 0, 4306983184345436311516800, 0, 1230566624098696089004800, 0, 0, 0, 0, 0, 0, 0, 0, 0, 0],
  [1384387452111033100130400, 0, 4614624840370110333768000, 0, 3020481713696799491193600, 0, 671218158599288775820800, 0, 0, 0, 0, 0, 0, 0, 0, 0],
  [0, 3230237388259077233637600, 0, 4111211221420643751902400, 0, 1987838392774816759161600, 0, 361425162322693956211200, 0, 0, 0, 0, 0, 0, 0, 0],
  [1076745796086359077879200, 0, 3915439258495851192288000, 0, 3252826460904245605900800, 0, 1252940562718672381532160, 0, 192760086572103443312640, 0, 0, 0, 0, 0, 0, 0],
  [0, 2642921499484699554794400, 0, 3794964204388286540217600, 0, 2385406071329780110993920, 0, 765370931977469554329600, 0, 102049457596995940577280, 0, 0, 0, 0, 0, 0],
  [880973833161566518264800, 0, 3388360896775255839480000, 0, 3252826460904245605900800, 0, 1658303685951184034380800, 0, 456537047144455523635200, 0, 53710240840524179251200, 0, 0, 0, 0, 0],
  [0, 2236318191871668854056800, 0, 3478717187355929328532800, 0, 2572496743590939335385600, 0, 1107773717335811197056000, 0, 267272388944513177702400, 0, 28133935678369808179200, 0, 0, 0, 0],
  [745439397290556284685600, 0, 2981757589162225138742400, 0, 3157155094407061911609600, 0, 1920141110048739408230400, 0, 717415359798430108569600, 0, 154125038933678079590400, 0, 14678575136540769484800, 0, 0, 0],
  [0, 1938142432955446340182560, 0, 3192234595456029266183040, 0, 2640194026317016686316800, 0, 1371529364320528148736000, 0, 453201007340696257843200, 0, 87777879316513801519104, 0, 7632859071001200132096, 0, 0],
  [646047477651815446727520, 0, 2660195496213357721819200, 0, 3024222248326764567962880, 0, 2080152869219467692249600, 0, 946156489009523766374400, 0, 280507570859294104854528, 0, 49472234719452223078400, 0, 3957778777556177846272, 0],
  [0, 1710125676137158535455200, 0, 2940216074762132218852800, 0, 2640194026317016686316800, 0, 1565332426670167995840000, 0, 634481410276974760980480, 0, 170679209782110169620480, 0, 27636213877762965995520, 0, 2047126953908367851520]]
/-- entry of `momTab` -/
def momE (m i : ℕ) : ℤ := (momTab.getD m []).getD i 0

set_option maxRecDepth 100000 in
theorem tab_mom : (List.range 16).all (fun m => (List.range 16).all (fun i =>
    (2 * (i : ℤ) + 1) * dotL 16 (m + 1) (poly i) (powC m) == momE m i)) = true := by decide +kernel
set_option maxRecDepth 100000 in
theorem tab_complete : (List.range 16).all (fun m =>
    (List.range 16).all (fun i => decide (i ≤ m) || momE m i == 0) &&
    (List.range 16).all (fun j => ((List.range 16).map (fun i => momE m i * poly i j)).sum == L60 * powC m j)) = true := by
  decide +kernel

/-- `10^24 · Σ_j w(i,j) x_j^m` with everything scaled: `Σ_j W_j X_j^m` -/
def quadL (k i m : ℕ) : ℤ := ((List.range k).map (fun j => ((weightsRaw k).getD i []).getD j 0 * ((nodesRaw k).getD j 0) ^ m)).sum

/-- The check for one coefficient `i` and one power `m`, within `10⁻¹⁴`. -/
def quadCheck (k i m : ℕ) : Bool :=
  decide (|2 ^ i * quadL k i m * L60 - (2 * (i : ℤ) + 1) * dotL (i + 1) (m + 1) (closed i) (powC m) * 10 ^ (24 * (m + 1))| * 10 ^ 14 ≤
    L60 * 10 ^ (24 * (m + 1)))

def quadAll (k : ℕ) : Bool := (List.range k).all (fun i => (List.range (2 * k - i)).all (fun m => quadCheck k i m))

section
set_option maxRecDepth 100000
set_option Elab.async false
theorem quad_ok16_0 : (List.range (2 * 16 - 0)).all (fun m => quadCheck 16 0 m) = true := by decide +kernel
theorem quad_ok16_1 : (List.range (2 * 16 - 1)).all (fun m => quadCheck 16 1 m) = true := by decide +kernel
theorem quad_ok16_2 : (List.range (2 * 16 - 2)).all (fun m => quadCheck 16 2 m) = true := by decide +kernel
theorem quad_ok16_3 : (List.range (2 * 16 - 3)).all (fun m => quadCheck 16 3 m) = true := by decide +kernel
theorem quad_ok16_4 : (List.range (2 * 16 - 4)).all (fun m => quadCheck 16 4 m) = true := by decide +kernel
theorem quad_ok16_5 : (List.range (2 * 16 - 5)).all (fun m => quadCheck 16 5 m) = true := by decide +kernel
theorem quad_ok16_6 : (List.range (2 * 16 - 6)).all (fun m => quadCheck 16 6 m) = true := by decide +kernel
theorem quad_ok16_7 : (List.range (2 * 16 - 7)).all (fun m => quadCheck 16 7 m) = true := by decide +kernel
theorem quad_ok16_8 : (List.range (2 * 16 - 8)).all (fun m => quadCheck 16 8 m) = true := by decide +kernel
theorem quad_ok16_9 : (List.range (2 * 16 - 9)).all (fun m => quadCheck 16 9 m) = true := by decide +kernel
theorem quad_ok16_10 : (List.range (2 * 16 - 10)).all (fun m => quadCheck 16 10 m) = true := by decide +kernel
theorem quad_ok16_11 : (List.range (2 * 16 - 11)).all (fun m => quadCheck 16 11 m) = true := by decide +kernel
theorem quad_ok16_12 : (List.range (2 * 16 - 12)).all (fun m => quadCheck 16 12 m) = true := by decide +kernel
theorem quad_ok16_13 : (List.range (2 * 16 - 13)).all (fun m => quadCheck 16 13 m) = true := by decide +kernel
theorem quad_ok16_14 : (List.range (2 * 16 - 14)).all (fun m => quadCheck 16 14 m) = true := by decide +kernel
theorem quad_ok16_15 : (List.range (2 * 16 - 15)).all (fun m => quadCheck 16 15 m) = true := by decide +kernel
theorem quad_ok16 : quadAll 16 = true := by
  unfold quadAll
  rw [List.all_eq_true]
  intro i hi
  rw [List.mem_range] at hi
  exact match i, hi with
    | 0, _ => quad_ok16_0
    | 1, _ => quad_ok16_1
    | 2, _ => quad_ok16_2
    | 3, _ => quad_ok16_3
    | 4, _ => quad_ok16_4
    | 5, _ => quad_ok16_5
    | 6, _ => quad_ok16_6
    | 7, _ => quad_ok16_7
    | 8, _ => quad_ok16_8
    | 9, _ => quad_ok16_9
    | 10, _ => quad_ok16_10
    | 11, _ => quad_ok16_11
    | 12, _ => quad_ok16_12
    | 13, _ => quad_ok16_13
    | 14, _ => quad_ok16_14
    | 15, _ => quad_ok16_15
    | n + 16, h => absurd h (by omega)
theorem quad_ok18_0 : (List.range (2 * 18 - 0)).all (fun m => quadCheck 18 0 m) = true := by decide +kernel
theorem quad_ok18_1 : (List.range (2 * 18 - 1)).all (fun m => quadCheck 18 1 m) = true := by decide +kernel
theorem quad_ok18_2 : (List.range (2 * 18 - 2)).all (fun m => quadCheck 18 2 m) = true := by decide +kernel
theorem quad_ok18_3 : (List.range (2 * 18 - 3)).all (fun m => quadCheck 18 3 m) = true := by decide +kernel
theorem quad_ok18_4 : (List.range (2 * 18 - 4)).all (fun m => quadCheck 18 4 m) = true := by decide +kernel
theorem quad_ok18_5 : (List.range (2 * 18 - 5)).all (fun m => quadCheck 18 5 m) = true := by decide +kernel
theorem quad_ok18_6 : (List.range (2 * 18 - 6)).all (fun m => quadCheck 18 6 m) = true := by decide +kernel
theorem quad_ok18_7 : (List.range (2 * 18 - 7)).all (fun m => quadCheck 18 7 m) = true := by decide +kernel
theorem quad_ok18_8 : (List.range (2 * 18 - 8)).all (fun m => quadCheck 18 8 m) = true := by decide +kernel
theorem quad_ok18_9 : (List.range (2 * 18 - 9)).all (fun m => quadCheck 18 9 m) = true := by decide +kernel
theorem quad_ok18_10 : (List.range (2 * 18 - 10)).all (fun m => quadCheck 18 10 m) = true := by decide +kernel
theorem quad_ok18_11 : (List.range (2 * 18 - 11)).all (fun m => quadCheck 18 11 m) = true := by decide +kernel
theorem quad_ok18_12 : (List.range (2 * 18 - 12)).all (fun m => quadCheck 18 12 m) = true := by decide +kernel
theorem quad_ok18_13 : (List.range (2 * 18 - 13)).all (fun m => quadCheck 18 13 m) = true := by decide +kernel
theorem quad_ok18_14 : (List.range (2 * 18 - 14)).all (fun m => quadCheck 18 14 m) = true := by decide +kernel
theorem quad_ok18_15 : (List.range (2 * 18 - 15)).all (fun m => quadCheck 18 15 m) = true := by decide +kernel
theorem quad_ok18_16 : (List.range (2 * 18 - 16)).all (fun m => quadCheck 18 16 m) = true := by decide +kernel
theorem quad_ok18_17 : (List.range (2 * 18 - 17)).all (fun m => quadCheck 18 17 m) = true := by decide +kernel
theorem quad_ok18 : quadAll 18 = true := by
  unfold quadAll
  rw [List.all_eq_true]
  intro i hi
  rw [List.mem_range] at hi
  exact match i, hi with
    | 0, _ => quad_ok18_0
    | 1, _ => quad_ok18_1
    | 2, _ => quad_ok18_2
    | 3, _ => quad_ok18_3
    | 4, _ => quad_ok18_4
    | 5, _ => quad_ok18_5
    | 6, _ => quad_ok18_6
    | 7, _ => quad_ok18_7
    | 8, _ => quad_ok18_8
    | 9, _ => quad_ok18_9
    | 10, _ => quad_ok18_10
    | 11, _ => quad_ok18_11
    | 12, _ => quad_ok18_12
    | 13, _ => quad_ok18_13
    | 14, _ => quad_ok18_14
    | 15, _ => quad_ok18_15
    | 16, _ => quad_ok18_16
    | 17, _ => quad_ok18_17
    | n + 18, h => absurd h (by omega)
theorem quad_ok2 : quadAll 2 = true := by decide +kernel
theorem quad_ok4 : quadAll 4 = true := by decide +kernel
theorem quad_ok6 : quadAll 6 = true := by decide +kernel
theorem quad_ok8 : quadAll 8 = true := by decide +kernel
theorem quad_ok10 : quadAll 10 = true := by decide +kernel
theorem quad_ok12 : quadAll 12 = true := by decide +kernel
theorem quad_ok14 : quadAll 14 = true := by decide +kernel
theorem quad_ok : ∀ k ∈ [2, 4, 6, 8, 10, 12, 14], quadAll k = true := by
  intro k hk
  simp only [List.mem_cons, List.not_mem_nil, or_false] at hk
  rcases hk with h | h | h | h | h | h | h
  · rw [h]; exact quad_ok2
  · rw [h]; exact quad_ok4
  · rw [h]; exact quad_ok6
  · rw [h]; exact quad_ok8
  · rw [h]; exact quad_ok10
  · rw [h]; exact quad_ok12
  · rw [h]; exact quad_ok14
end

/-- The node list is strictly increasing inside `(-1, 1)`. -/
def nodesInside (k : ℕ) : Bool := (nodesRaw k).length == k && (nodesRaw k).all (fun x => decide (-10 ^ 24 < x ∧ x < 10 ^ 24))

theorem nodes_inside : [2, 4, 6, 8, 10, 12, 14, 16, 18].all nodesInside = true := by decide +kernel

end Verif.Legendre
