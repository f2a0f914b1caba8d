import Verif.Lemmas.FlStep
import Verif.Lemmas.Converge

/-!
# Convergence of `propagate` in finite precision
-/
namespace Verif.Fp
open Verif.Mesh Verif.YT Verif.CalcT Verif.Propag Verif.Solver Verif.Spec Verif.Legendre

/-- **The chain of steps**, with an absolute part `mu`. -/
theorem chain_fl {α : Type} {P : α → ℝ × ℝ} {K mu : ℝ} (hK : 0 ≤ K) (hmu : 0 ≤ mu) {y dy : ℝ → ℝ} {step : α → ℕ → α} {p q e : ℕ → ℝ} :
    ∀ {l : List ℕ} {x0 x1 : ℝ} (c : α),
      (∀ k ∈ l, 0 ≤ e k ∧ (∀ c, sz (P (step c k) - (y (q k), dy (q k))) ≤
          (Real.exp (K * |q k - p k|) + e k) * sz (P c - (y (p k), dy (p k))) + e k * (sz (y (p k), dy (p k)) + mu)) ∧
        sz (y (q k), dy (q k)) ≤ Real.exp (K * |q k - p k|) * sz (y (p k), dy (p k))) →
      Linked p q x0 l x1 →
      sz (P (l.foldl step c) - (y x1, dy x1)) ≤ Real.exp (K * (l.map fun k => |q k - p k|).sum + (l.map e).sum) *
        (sz (P c - (y x0, dy x0)) + (l.map e).sum * (sz (y x0, dy x0) + mu)) := by
  intro l
  induction l with
  | nil =>
    intro x0 x1 c _ h
    simp only [Linked] at h
    subst h
    simp
  | cons k l ih =>
    intro x0 x1 c hk hl
    obtain ⟨h1, h2⟩ := hl
    subst h1
    obtain ⟨e0, st, gr⟩ := hk k (by simp)
    have st := st c
    have IH := ih (step c k) (fun m hm => hk m (List.mem_cons_of_mem _ hm)) h2
    rw [List.foldl_cons, List.map_cons, List.map_cons, List.sum_cons, List.sum_cons]
    set X := (l.map fun k => |q k - p k|).sum
    set s := (l.map e).sum with hs'
    have s0 : 0 ≤ s := List.sum_nonneg (by
      intro x hx
      obtain ⟨m, hm, rfl⟩ := List.mem_map.mp hx
      exact (hk m (List.mem_cons_of_mem _ hm)).1)
    have d1 := step_arith e0 (sz_nonneg _) st (by positivity)
    set d0 := sz (P c - (y (p k), dy (p k))) with hd0
    set n0 := sz (y (p k), dy (p k))
    set g := K * |q k - p k| with hg
    have g0 : 0 ≤ g := by positivity
    have hd0' : 0 ≤ d0 := sz_nonneg _
    have hn0 : 0 ≤ n0 := sz_nonneg _
    have x1 : Real.exp g ≤ Real.exp (g + e k) := Real.exp_le_exp.mpr (by linarith)
    have x2 : 1 ≤ Real.exp (g + e k) := Real.one_le_exp (by linarith)
    have main : sz (P (step c k) - (y (q k), dy (q k))) + s * (sz (y (q k), dy (q k)) + mu) ≤ Real.exp (g + e k) * (d0 + (e k + s) * (n0 + mu)) := by
      have a0 : sz (y (q k), dy (q k)) + mu ≤ Real.exp (g + e k) * (n0 + mu) := by
        rw [mul_add]
        exact add_le_add (gr.trans (mul_le_mul_of_nonneg_right x1 hn0)) (le_mul_of_one_le_left hmu x2)
      have a1 := mul_le_mul_of_nonneg_left a0 s0
      have a2 : e k * (n0 + mu) ≤ Real.exp (g + e k) * (e k * (n0 + mu)) := le_mul_of_one_le_left (by positivity) x2
      have a3 : Real.exp (g + e k) * (d0 + (e k + s) * (n0 + mu)) = Real.exp (g + e k) * d0 + Real.exp (g + e k) * (e k * (n0 + mu)) + s * (Real.exp (g + e k) * (n0 + mu)) := by ring
      rw [a3]; linarith only [a1, a2, d1]
    refine IH.trans ((mul_le_mul_of_nonneg_left main (Real.exp_pos _).le).trans (le_of_eq ?_))
    rw [← mul_assoc, ← Real.exp_add]
    congr 2
    rw [hg]; ring

/-- A step near a solution flow, perturbed. -/
theorem perturbed_step {K e ρ mu : ℝ} (hK : 1 ≤ K) (hmu : 0 ≤ mu) {W : ℝ → ℝ} {E a b x x' : ℝ} {S : ℝ × ℝ → ℝ × ℝ} (hN : Near W E a b S x x' e) (he : 0 ≤ e) (hρ : 0 ≤ ρ)
    (hc : ContinuousOn W (Set.Icc a b)) (hq : ∀ x ∈ Set.Icc a b, |W x - E| ≤ K) (hx : x ∈ Set.Icc a b) (hx' : x' ∈ Set.Icc a b) {y dy : ℝ → ℝ} (hy : SolvesOn W E a b y dy)
    {c c' : ℝ × ℝ} (hp : sz (c' - S c) ≤ ρ * (sz c + mu)) :
    sz (c' - (y x', dy x')) ≤ (Real.exp (K * |x' - x|) + (e + ρ)) * sz (c - (y x, dy x)) + (e + ρ) * (sz (y x, dy x) + mu) := by
  have h1 := hN.step he hK hc hq hx hx' hy c
  have h2 := sz_tri c' (S c) (y x', dy x')
  have h3 := sz_le_add c (y x, dy x)
  have h4 := mul_le_mul_of_nonneg_left (add_le_add_left h3 mu) hρ
  set A := sz (c - (y x, dy x))
  set N := sz (y x, dy x)
  set X := Real.exp (K * |x' - x|)
  have e1 : (X + (e + ρ)) * A + (e + ρ) * (N + mu) = ((X + e) * A + e * N) + ρ * (N + A + mu) + e * mu := by ring
  have e2 : 0 ≤ e * mu := by positivity
  rw [e1]; linarith

variable {fl : ℝ → ℝ}

/-- the sector with the numbers of the type -/
def flSec (s : Sec ℝ) : Sec (Fl fl) := ⟨⟨s.min⟩, ⟨s.max⟩, s.dir⟩
theorem isMesh_fl {l : List (Sec (Fl fl))} {dmin dmax : Fl fl} (h : IsMesh (realMesh l) dmin.val dmax.val) : IsMesh l dmin dmax := by
  have eb : bounds (realMesh l) = (bounds l).map fun p => (p.1.val, p.2.val) := by
    unfold bounds realMesh realSec; rw [List.map_map, List.map_map]; rfl
  obtain ⟨ht, ho⟩ := h
  rw [eb] at ht
  refine ⟨⟨?_, ?_, ?_, ?_⟩, ?_⟩
  · have := ht.nonempty
    intro hn; rw [hn] at this; exact this rfl
  · intro p hp
    refine Fl.ext (ht.first (p.1.val, p.2.val) ?_)
    rw [List.head?_map, hp]; rfl
  · intro p hp
    refine Fl.ext (ht.last (p.1.val, p.2.val) ?_)
    rw [List.getLast?_map, hp]; rfl
  · intro i hi
    have := ht.joined i (by rw [List.length_map]; exact hi)
    simp only [List.getElem_map] at this
    refine Or.inl (Fl.ext ?_)
    rcases this with h | h
    · exact h
    · simpa using h
  · intro s hs
    have := ho (realSec s) (List.mem_map_of_mem hs)
    simpa [realSec] using this

/-- constant of one step -/
noncomputable def stepC (M : ℝ) : ℝ := 96 * bT (31 * M + 1) M

theorem FlFit.arith {M H u mu σ τ R : ℝ} {W : Sec ℝ → ℝ → ℝ} {dmin dmax eps : Fl fl} {l : List (Sec (Fl fl))} {eta : ℕ → Fl fl → ℕ → Fl fl} {vs : Sec (Fl fl) → ℕ → Fl fl}
    (h : FlFit M H u mu σ τ R W dmin dmax eps l eta vs) (hσ0 : 0 ≤ σ) (h8 : u + σ ≤ 1 / 8) {s : Sec (Fl fl)} (hs : s ∈ l) : Arith u mu (u + σ) fl := by
  refine ⟨h.r, h.u0, by linarith, h8, h.mu0, ?_⟩
  have h1 := h.mu_le s hs
  have h2 := h.fit.narrow (realSec s) (List.mem_map_of_mem hs)
  have h3 := h.fit.small
  simp only [realSec] at h2
  linarith

theorem FlFit.sec {M H u mu σ τ R : ℝ} {W : Sec ℝ → ℝ → ℝ} {dmin dmax eps : Fl fl} {l : List (Sec (Fl fl))} {eta : ℕ → Fl fl → ℕ → Fl fl} {vs : Sec (Fl fl) → ℕ → Fl fl}
    (h : FlFit M H u mu σ τ R W dmin dmax eps l eta vs) (hM : 1 ≤ M) (hσ0 : 0 ≤ σ) (h8 : u + σ ≤ 1 / 8) (hτ1 : τ ≤ 1) {s : Sec (Fl fl)} (hs : s ∈ l) :
    SecHyp u mu (u + σ) fl (31 * M + 1) (s.max.val - s.min.val) (s.max - s.min) (vs s) := by
  have hA := h.arith hσ0 h8 hs
  have hm := List.mem_map_of_mem (f := realSec) hs
  have w0 := h.fit.wide (realSec s) hm
  have w1 := h.fit.narrow (realSec s) hm
  simp only [realSec] at w0 w1
  set hh := s.max.val - s.min.val with hhd
  have h1 : hh ≤ 1 := w1.trans h.fit.small
  have hmu := h.mu_le s hs
  refine ⟨hA, by linarith, w0, h1, hmu, ⟨?_, ?_⟩, ?_⟩
  · rw [one_mul, abs_of_pos w0]
  · have := h.r.err hh
    rw [abs_of_pos w0, max_eq_left hmu] at this
    have e : (s.max - s.min).val = fl hh := rfl
    rw [e, one_mul, mul_comm hh]
    exact this.trans (mul_le_mul_of_nonneg_right (by linarith) w0.le)
  · intro k
    have hp : 0 < hh ^ k := pow_pos w0 k
    rw [inv_pow, ← div_eq_mul_inv, le_div_iff₀ hp]
    have hc := h.coeff s hs
    by_cases hk : k < 16
    · have h2 := hc.near k hk
      rw [← hhd] at h2
      have hsm := h.fit.smooth (realSec s) hm
      have hlt : (realSec s).min < (realSec s).max := by simp only [realSec]; linarith
      have hor : SmoothOn M (oriented (W (realSec s)) (realSec s)) (realSec s).min (realSec s).max := by
        unfold oriented
        split
        · exact hsm.reflect
        · exact hsm
      have h3 := legendreCoeff_sub_le hlt hor.continuousOn (continuousOn_const (c := (0 : ℝ))) (c := M) (fun x hx => by rw [sub_zero]; exact hor.bound hx) hk
      have h4 : legendreCoeff (fun _ => (0 : ℝ)) (realSec s).min (realSec s).max k = 0 := by unfold legendreCoeff; simp
      rw [h4, sub_zero] at h3
      have e : |(vs s k).val| * hh ^ k = |(vs s k).val * hh ^ k| := by rw [abs_mul, abs_of_pos hp]
      rw [e]
      have e2 : (vs s k).val * hh ^ k = ((vs s k).val * hh ^ k - legendreCoeff (oriented (W (realSec s)) (realSec s)) s.min.val s.max.val k) +
        legendreCoeff (oriented (W (realSec s)) (realSec s)) s.min.val s.max.val k := by ring
      rw [e2]
      refine (abs_add_le _ _).trans ?_
      have h5 : |legendreCoeff (oriented (W (realSec s)) (realSec s)) s.min.val s.max.val k| ≤ 31 * M := h3
      linarith
    · have := hc.zero k (by omega)
      rw [this]; simp; linarith

/-- one rounding, with a bound for the result -/
theorem fl_le {u mu : ℝ} (hr : Rounding u mu fl) (hu : 0 ≤ u) (hu8 : u ≤ 1 / 8) {x c : ℝ} (hx : |x| ≤ c) (hm : mu ≤ c) : |fl x| ≤ 9 / 8 * c := by
  have h1 := (hr.err x).trans (mul_le_mul_of_nonneg_left (max_le hx hm) hu)
  have c0 : 0 ≤ c := (abs_nonneg _).trans hx
  have h2 : u * c ≤ 1 / 8 * c := mul_le_mul_of_nonneg_right hu8 c0
  have e : fl x = (fl x - x) + x := by ring
  rw [e]; refine (abs_add_le _ _).trans ?_
  linarith

/-- the mean of the potential is bounded by `M` -/
theorem mean_le {M a b : ℝ} {f : ℝ → ℝ} (hab : a < b) (hb : ∀ x ∈ Set.Icc a b, |f x| ≤ M) : |legendreCoeff f a b 0| ≤ M := by
  unfold legendreCoeff
  have e : (2 * ((0 : ℕ) : ℝ) + 1) = 1 := by norm_num
  rw [e, one_mul]
  have h1 : ‖∫ t in (0 : ℝ)..1, f (a + (b - a) * t) * shiftedP 0 t‖ ≤ M * |1 - 0| := by
    refine intervalIntegral.norm_integral_le_of_norm_le_const (fun t ht => ?_)
    rw [Set.uIoc_of_le zero_le_one] at ht
    rw [Real.norm_eq_abs, abs_mul]
    have i1 : 0 ≤ (b - a) * t := mul_nonneg (by linarith) ht.1.le
    have i2 : (b - a) * t ≤ (b - a) * 1 := mul_le_mul_of_nonneg_left ht.2 (by linarith)
    have e1 := hb (a + (b - a) * t) ⟨by linarith, by linarith⟩
    have e2 := (C41_table (i := 0) (by norm_num) t).2.2.2 ht.1.le ht.2
    calc _ ≤ M * 1 := mul_le_mul e1 e2 (abs_nonneg _) ((abs_nonneg _).trans e1)
      _ = M := mul_one M
  rwa [Real.norm_eq_abs, sub_zero, abs_one, mul_one] at h1

/-- The argument of the η functions in a full step. -/
theorem FlFit.argument {M H u mu σ τ R : ℝ} {W : Sec ℝ → ℝ → ℝ} {dmin dmax eps : Fl fl} {l : List (Sec (Fl fl))} {eta : ℕ → Fl fl → ℕ → Fl fl} {vs : Sec (Fl fl) → ℕ → Fl fl}
    (h : FlFit M H u mu σ τ R W dmin dmax eps l eta vs) (hM : 1 ≤ M) (hσ0 : 0 ≤ σ) (h8 : u + σ ≤ 1 / 8) (hτ1 : τ ≤ 1) {s : Sec (Fl fl)} (hs : s ∈ l) {E : Fl fl} (hE : |E.val| ≤ M) :
    |((vs s 0 - E) * ((s.max - s.min) * (s.max - s.min))).val| ≤ 6 * M * H := by
  have hA := h.arith hσ0 h8 hs
  have hm := List.mem_map_of_mem (f := realSec) hs
  have w0 := h.fit.wide (realSec s) hm
  have w1 := h.fit.narrow (realSec s) hm
  simp only [realSec] at w0 w1
  set hh := s.max.val - s.min.val with hhd
  have h1 : hh ≤ 1 := w1.trans h.fit.small
  have hmu := h.mu_le s hs
  have u8 : u ≤ 1 / 8 := by linarith
  have hlt : (realSec s).min < (realSec s).max := by simp only [realSec]; linarith
  have hsm := h.fit.smooth (realSec s) hm
  have hor : SmoothOn M (oriented (W (realSec s)) (realSec s)) (realSec s).min (realSec s).max := by
    unfold oriented
    split
    · exact hsm.reflect
    · exact hsm
  have v0 : |(vs s 0).val| ≤ M + 1 := by
    have a1 := (h.coeff s hs).near 0 (by norm_num)
    rw [pow_zero, mul_one] at a1
    have a2 : |legendreCoeff (oriented (W (realSec s)) (realSec s)) s.min.val s.max.val 0| ≤ M := mean_le hlt (fun x hx => hor.bound hx)
    have a3 := abs_le.mp a1
    have a4 := abs_le.mp a2
    exact abs_le.mpr ⟨by linarith, by linarith⟩
  have r1 : |(vs s 0 - E).val| ≤ 9 / 8 * (3 * M) := by
    refine fl_le h.r h.u0 u8 ?_ (by linarith)
    refine (abs_sub _ _).trans ?_
    linarith
  have r2 : |(s.max - s.min).val| ≤ 9 / 8 * hh := fl_le h.r h.u0 u8 (by rw [abs_of_pos w0]) hmu
  have r3 : |((s.max - s.min) * (s.max - s.min)).val| ≤ 9 / 8 * (81 / 64 * hh) := by
    refine fl_le h.r h.u0 u8 ?_ (by linarith)
    rw [abs_mul]
    have := mul_le_mul r2 r2 (abs_nonneg _) (by positivity)
    have q : hh * hh ≤ hh := mul_le_of_le_one_left w0.le h1
    refine this.trans ?_
    linarith
  have r4 : |((vs s 0 - E) * ((s.max - s.min) * (s.max - s.min))).val| ≤ 9 / 8 * (9 / 8 * (3 * M) * (9 / 8 * (81 / 64 * hh))) := by
    have q : hh ≤ M * hh := le_mul_of_one_le_left w0.le hM
    refine fl_le h.r h.u0 u8 ?_ (by linarith)
    rw [abs_mul]
    exact mul_le_mul r1 r3 (abs_nonneg _) (by positivity)
  refine r4.trans ?_
  have q : M * hh ≤ M * H := mul_le_mul_of_nonneg_left w1 (by linarith)
  have q0 : 0 ≤ M * hh := mul_nonneg (by linarith) w0.le
  linarith

/-- **One sector.** -/
theorem sector_fl (M : ℝ) (hM : 1 ≤ M) : ∃ C : ℝ, 1 ≤ C ∧ ∀ (fl : ℝ → ℝ) (H u mu σ τ : ℝ) (W : Sec ℝ → ℝ → ℝ) (dmin dmax eps : Fl fl) (l : List (Sec (Fl fl)))
    (eta : ℕ → Fl fl → ℕ → Fl fl) (vs : Sec (Fl fl) → ℕ → Fl fl) (th : Fl fl → Fl fl → Fl fl → Y (Fl fl) → Fl fl) (pru : Fl fl → Fl fl → Fl fl → Fl fl → Y (Fl fl) → Y (Fl fl) → Fl fl)
    (v0M E a b : Fl fl) (s : Sec (Fl fl)) (useH : Bool) (y dy : ℝ → ℝ),
    FlFit M H u mu σ τ (6 * M * H) W dmin dmax eps l eta vs → 0 ≤ σ → u + σ ≤ 1 / 8 → τ ≤ 1 → s ∈ l → |E.val| ≤ M →
    (a.val ≤ s.min.val ∨ s.max.val ≤ a.val) → (b.val ≤ s.min.val ∨ s.max.val ≤ b.val) →
    SolvesOn (W (realSec s)) E.val s.min.val s.max.val y dy → ∀ c : Y (Fl fl),
    sz (pr (valY ((sectorGen eps eta th pru (vs s) v0M s).propagate E useH c a b).1) - (y (cl s.min.val s.max.val b.val), dy (cl s.min.val s.max.val b.val))) ≤
      (Real.exp (2 * M * |cl s.min.val s.max.val b.val - cl s.min.val s.max.val a.val|) +
        C * ((H ^ ord useH + τ) * |cl s.min.val s.max.val b.val - cl s.min.val s.max.val a.val| + (u + σ))) *
        sz (pr (valY c) - (y (cl s.min.val s.max.val a.val), dy (cl s.min.val s.max.val a.val))) +
      C * ((H ^ ord useH + τ) * |cl s.min.val s.max.val b.val - cl s.min.val s.max.val a.val| + (u + σ)) *
        (sz (y (cl s.min.val s.max.val a.val), dy (cl s.min.val s.max.val a.val)) + mu) := by
  obtain ⟨C, hC, key⟩ := sector_near M hM
  have hB1 : (1 : ℝ) ≤ 31 * M + 1 := by linarith
  refine ⟨C + 2 * stepC M, ?_, ?_⟩
  · have : 0 ≤ stepC M := by
      unfold stepC
      have hS : SecHyp 0 0 0 id (31 * M + 1) 1 (⟨1⟩ : Fl id) (fun _ => ⟨0⟩) := by
        refine ⟨⟨⟨fun x => by simp, monotone_id, fun x => rfl⟩, le_rfl, le_rfl, by norm_num, le_rfl, zero_le_one⟩, hB1, one_pos, le_rfl, zero_le_one, ⟨by simp, by simp⟩, fun k => ?_⟩
        simp; linarith
      linarith [(bT_parts hS hM).1]
    linarith
  intro fl H u mu σ τ W dmin dmax eps l eta vs th pru v0M E a b s useH y dy hF hσ0 h8 hτ1 hs hE ha hb hy c
  have hA := hF.arith hσ0 h8 hs
  have S := hF.sec hM hσ0 h8 hτ1 hs
  have hm := List.mem_map_of_mem (f := realSec) hs
  have hlt : s.min.val < s.max.val := by have := S.h0; linarith
  obtain ⟨b1, -, -⟩ := bT_parts S hM
  have hsm := hF.fit.smooth (realSec s) hm
  have hτ0 : 0 ≤ τ := (hF.coeff s hs).nonneg
  have hnar := hF.fit.narrow (realSec s) hm
  have sk : ∀ x, Skips 0 0 (realSec s).min (realSec s).max x := fun x h1 h2 => ⟨fun h => by linarith, fun h => by linarith⟩
  have het : EtaWithin 0 etaR := fun n _ Z i _ => by simp [etaR]
  obtain ⟨Sx, hSx, -, hN⟩ := key 0 0 τ 0 etaR (fun k => (vs s k).val) (W (realSec s)) 0 E.val (realSec s) useH a.val b.val het zero_le_one hτ1 le_rfl zero_le_one
    (sk _) (sk _) le_rfl (hF.fit.wide _ hm) (hnar.trans hF.fit.small) hsm (hF.coeff s hs) hE (hF.fit.directed _ hm)
  have hN := hN ha hb
  -- the perturbation of the step
  set sF := sectorGen eps eta th pru (vs s) v0M s with hsF
  set sR := sectorOf 0 etaR (fun k => (vs s k).val) 0 (realSec s) with hsR
  have eF : EdgeOk sF := edge_fl hA sF rfl hlt (by have := hF.wide s hs; have := hF.eps0; show 0 < (s.max - s.min).val; linarith)
  have eR : EdgeOk sR := edge_real sR rfl hlt
  have dF : sF.dir ≠ .none := hF.fit.directed _ hm
  have dR : sR.dir ≠ .none := hF.fit.directed _ hm
  have hT := (calculateT_full_rel S hM hE hF.eta (by linarith [hF.u0]) (hF.argument hM hσ0 h8 hτ1 hs hE) hF.eps0 (hF.wide s hs) useH).t
  have hT' : RelM (u + σ) 1 (bT (31 * M + 1) M) (sF.tr E sF.h useH).t (sR.tr E.val sR.h useH).t := hT
  set z := sz (pr (valY c)) + mu with hz
  have hmz : mu ≤ z := by have := sz_nonneg (pr (valY c)); linarith
  have hz0 : 0 ≤ z := hA.mu0.trans hmz
  have hyy : RelY (u + σ) z 1 c (valY c) := by
    constructor
    · refine Rel.exact hA hz0 zero_le_one ?_
      have := le_sz1 (pr (valY c)); rw [one_mul]; simp only [pr, valY] at this hz ⊢; linarith [hA.mu0]
    · refine Rel.exact hA hz0 zero_le_one ?_
      have := le_sz2 (pr (valY c)); rw [one_mul]; simp only [pr, valY] at this hz ⊢; linarith [hA.mu0]
  have w0 := hA.w0
  have hfull : ∀ up, sz (pr (valY (fullStep sF E useH up c)) - pr (fullStep sR E.val useH up (valY c))) ≤ stepC M * (u + σ) * z := by
    intro up
    have := fullStep_relY hA b1 hmz (s := sF) (s' := sR) rfl (up := up) hT' hyy
    have e : stepC M * (u + σ) * z = 96 * bT (31 * M + 1) M * z * (u + σ) := by unfold stepC; ring
    rw [e]
    exact sz_le this.y.2 this.dy.2
  have hsc : 0 ≤ stepC M := by unfold stepC; linarith
  have hid : sz (pr (valY c) - pr (valY c)) ≤ stepC M * (u + σ) * z := by
    rw [sub_self]; simp only [sz, Prod.fst_zero, Prod.snd_zero, abs_zero, max_self]; positivity
  have hpert : sz (pr (valY (sF.propagate E useH c a b).1) - Sx (pr (valY c))) ≤ stepC M * (u + σ) * z := by
    rw [← hSx]
    obtain ⟨f1, f2, f3, f4⟩ := propagate_edge sF eF dF E useH c a b
    obtain ⟨r1, r2, r3, r4⟩ := propagate_edge sR eR dR E.val useH (valY c) a.val b.val
    have m1 : sF.min.val = s.min.val := rfl
    have m2 : sF.max.val = s.max.val := rfl
    have m3 : sR.min = s.min.val := rfl
    have m4 : sR.max = s.max.val := rfl
    simp only [Fl.le_def, ccmp_le, decide_eq_true_eq, m1, m2, m3, m4] at f1 f2 f3 f4 r1 r2 r3 r4
    rcases ha with ha | ha <;> rcases hb with hb | hb
    · rw [f3 ha hb, r3 ha hb]; exact hid
    · rw [f1 ha hb, r1 ha hb]; exact hfull true
    · rw [f2 ha hb, r2 ha hb]; exact hfull false
    · rw [f4 ha hb, r4 ha hb]; exact hid
  have pa := cl_mem hlt.le a.val
  have pb := cl_mem hlt.le b.val
  have hcN : 0 ≤ C * (((realSec s).max - (realSec s).min) ^ ord useH + τ) * |cl s.min.val s.max.val b.val - cl s.min.val s.max.val a.val| := by
    have : 0 ≤ ((realSec s).max - (realSec s).min) ^ ord useH := pow_nonneg (by simp only [realSec]; linarith) _
    have : 0 ≤ C := by linarith
    positivity
  have main := perturbed_step (K := 2 * M) (by linarith) hA.mu0 hN (by rw [add_zero, ← mul_assoc]; exact hcN) (mul_nonneg hsc w0) hsm.continuousOn (pot_bound hsm hE) pa pb hy hpert
  refine main.trans ?_
  have hH : ((realSec s).max - (realSec s).min) ^ ord useH ≤ H ^ ord useH := pow_le_pow_left₀ (by simp only [realSec]; linarith) hnar _
  set D := |cl s.min.val s.max.val b.val - cl s.min.val s.max.val a.val| with hD
  have D0 : 0 ≤ D := abs_nonneg _
  have eb : C * ((((realSec s).max - (realSec s).min) ^ ord useH + τ) * D + 0) + stepC M * (u + σ) ≤ (C + 2 * stepC M) * ((H ^ ord useH + τ) * D + (u + σ)) := by
    have q1 : (((realSec s).max - (realSec s).min) ^ ord useH + τ) * D ≤ (H ^ ord useH + τ) * D := mul_le_mul_of_nonneg_right (by linarith) D0
    have hH0 : 0 ≤ H ^ ord useH := le_trans (pow_nonneg (by simp only [realSec]; linarith) _) hH
    have q2 := mul_le_mul_of_nonneg_left q1 (show 0 ≤ C by linarith)
    have q3 : 0 ≤ stepC M * ((H ^ ord useH + τ) * D) := by positivity
    have q4 : 0 ≤ stepC M * (u + σ) := mul_nonneg hsc w0
    have q5 : 0 ≤ C * (u + σ) := mul_nonneg (by linarith) w0
    have e : (C + 2 * stepC M) * ((H ^ ord useH + τ) * D + (u + σ)) = C * ((H ^ ord useH + τ) * D) + C * (u + σ) + 2 * (stepC M * ((H ^ ord useH + τ) * D)) + 2 * (stepC M * (u + σ)) := by ring
    rw [e]; linarith
  refine add_le_add (mul_le_mul_of_nonneg_right (add_le_add le_rfl eb) (sz_nonneg _)) (mul_le_mul_of_nonneg_right eb (add_nonneg (sz_nonneg _) hA.mu0))

/-- **Convergence of `propagate` between mesh points, in finite precision.** -/
theorem converge_fl (M : ℝ) (hM : 1 ≤ M) : ∃ C : ℝ, 1 ≤ C ∧ ∀ (fl : ℝ → ℝ) (H u mu σ τ ε : ℝ) (W : Sec ℝ → ℝ → ℝ) (dmin dmax eps : Fl fl) (r : BuildResult (Fl fl))
    (eta : ℕ → Fl fl → ℕ → Fl fl) (vs : Sec (Fl fl) → ℕ → Fl fl) (th : Fl fl → Fl fl → Fl fl → Y (Fl fl) → Fl fl) (pru : Fl fl → Fl fl → Fl fl → Fl fl → Y (Fl fl) → Y (Fl fl) → Fl fl)
    (pi E a b : Fl fl) (useH : Bool) (y dy : ℝ → ℝ) (c : Y (Fl fl)),
    FlFit M H u mu σ τ (6 * M * H) W dmin dmax eps r.sectors eta vs → 0 ≤ σ → τ + r.sectors.length * (u + σ) ≤ ε → ε ≤ 1 / 8 → dmax.val - dmin.val ≤ M → |E.val| ≤ M →
    SolvesMesh W E.val (realMesh r.sectors) y dy → IsBoundary (bounds (realMesh r.sectors)) a.val → IsBoundary (bounds (realMesh r.sectors)) b.val →
    ∃ res, (constructGen eps eta th pru vs dmin dmax r).propagate pi E c a b useH = .ok res ∧
      sz (pr (valY res.1) - (y b.val, dy b.val)) ≤ C * (sz (pr (valY c) - (y a.val, dy a.val)) + (H ^ ord useH + ε) * (sz (y a.val, dy a.val) + mu)) := by
  obtain ⟨C1, hC1, key⟩ := sector_fl M hM
  set G := Real.exp (2 * M * M + C1 * (M + 1) * 2) * (C1 * (M + 1)) with hG
  have hM0 : 0 ≤ M := by linarith
  have hC1M : 1 ≤ C1 * (M + 1) := one_le_mul_of_one_le_of_one_le hC1 (by linarith)
  have hG1 : 1 ≤ G := one_le_mul_of_one_le_of_one_le (Real.one_le_exp (by positivity)) hC1M
  have hbz : 0 ≤ bZ (31 * M + 1) M := by linarith [bZ_one (B := 31 * M + 1) (by linarith) hM]
  refine ⟨G + 2 * bZ (31 * M + 1) M, by linarith, ?_⟩
  intro fl H u mu σ τ ε W dmin dmax eps r eta vs th pru pi E a b useH y dy c hF hσ0 hε hε1 hd hE hy ha hb
  have hF' := hF
  have hN0 : 0 < r.sectors.length := by
    have := hF.fit.mesh.length_pos
    unfold realMesh at this; rwa [List.length_map] at this
  have hN1 : (1 : ℝ) ≤ r.sectors.length := by exact_mod_cast hN0
  have hu0 := hF.u0
  have hw0 : 0 ≤ u + σ := by linarith
  have hτ0 : 0 ≤ τ := (hF.coeff _ (List.getElem_mem hN0)).nonneg
  have hwN : u + σ ≤ r.sectors.length * (u + σ) := le_mul_of_one_le_left hw0 hN1
  have h8 : u + σ ≤ 1 / 8 := by linarith
  have hτ1 : τ ≤ 1 := by linarith
  have hε0 : 0 ≤ ε := by linarith
  -- the two problems
  set P := constructGen eps eta th pru vs dmin dmax r with hP
  set rR : BuildResult ℝ := ⟨realMesh r.sectors, r.matchIndex⟩ with hrR
  set Q := constructOf 0 etaR (fun s k => (vs (flSec s) k).val) dmin.val dmax.val rR with hQ
  have hPm : P.mesh = r.sectors := by
    show List.map PSec.toSec (r.sectors.map _) = _
    rw [List.map_map]; exact List.map_id r.sectors
  have hQm : Q.mesh = realMesh r.sectors := construct_mesh _ _ _ _ _ _
  have hm : IsMesh P.mesh P.dmin P.dmax := by rw [hPm]; exact isMesh_fl hF.fit.mesh
  have hmQ : IsMesh Q.mesh Q.dmin Q.dmax := by rw [hQm]; exact hF.fit.mesh
  obtain ⟨v0Q, hsQ⟩ := construct_secs 0 etaR (fun s k => (vs (flSec s) k).val) dmin.val dmax.val rR
  rw [← hQ] at hsQ
  have hlenP : P.secs.length = r.sectors.length := by show (r.sectors.map _).length = _; rw [List.length_map]
  have hlenQ : Q.secs.length = r.sectors.length := by rw [hsQ, List.length_map]; show (realMesh r.sectors).length = _; unfold realMesh; rw [List.length_map]
  obtain ⟨v0P, hsP⟩ : ∃ v0, P.secs = r.sectors.map (fun s => sectorGen eps eta th pru (vs s) v0 s) := ⟨_, rfl⟩
  have getP : ∀ k (hk : k < r.sectors.length), P.secs[k]'(by omega) = sectorGen eps eta th pru (vs r.sectors[k]) v0P r.sectors[k] := by
    intro k hk; simp only [hsP, List.getElem_map]
  have getQ : ∀ k (hk : k < r.sectors.length), (Q.secs[k]'(by omega)).toSec = realSec r.sectors[k] := by
    intro k hk; simp only [hsQ, List.getElem_map, hrR, realMesh]; rfl
  have bdIn : ∀ x : Fl fl, IsBoundary (bounds (realMesh r.sectors)) x.val → x.val ∈ Set.Icc dmin.val dmax.val ∧
      ∀ s ∈ r.sectors, x.val ≤ s.min.val ∨ s.max.val ≤ x.val := by
    intro x hx
    obtain ⟨s', hs', hx'⟩ := mesh_isBoundary hx
    obtain ⟨m, hm', rfl⟩ := List.getElem_of_mem hs'
    have lm : m < r.sectors.length := by unfold realMesh at hm'; rwa [List.length_map] at hm'
    have em : (realMesh r.sectors)[m] = realSec r.sectors[m] := by simp [realMesh]
    rw [em] at hx'
    have hl2 : m < Q.secs.length := by omega
    have rng := srange hmQ hl2
    have e1 : (Q.secs[m]).min = (realSec r.sectors[m]).min := by rw [getQ m lm]
    have e2 : (Q.secs[m]).max = (realSec r.sectors[m]).max := by rw [getQ m lm]
    constructor
    · have q1 : Q.dmin = dmin.val := rfl
      have q2 : Q.dmax = dmax.val := rfl
      rw [e1, e2, q1, q2] at rng
      rcases hx' with h | h <;> rw [h] <;> constructor <;> linarith [rng.1, rng.2.1, rng.2.2]
    · intro s hs
      obtain ⟨k, hk, rfl⟩ := List.getElem_of_mem hs
      have := mesh_point hmQ hl2 (show k < Q.secs.length by omega) (x := x.val) (by rw [getQ m lm]; exact hx')
      rwa [getQ k hk] at this
  have hA' : domainContains P.dmin P.dmax a = true := by
    have := (bdIn a ha).1
    simpa [domainContains, hP, constructGen] using this
  have hB' : domainContains P.dmin P.dmax b = true := by
    have := (bdIn b hb).1
    simpa [domainContains, hP, constructGen] using this
  obtain ⟨i, j, hi, hj, hia, hjb, hup, hdown, heq⟩ := propagate_closed P hm pi a b useH hA' hB'
  have hiN : i < r.sectors.length := by omega
  have hjN : j < r.sectors.length := by omega
  have cmin : ∀ k (hk : k < r.sectors.length), (P.secs[k]'(by omega)).min = (r.sectors[k]).min := by intro k hk; rw [getP k hk]; rfl
  have cmax : ∀ k (hk : k < r.sectors.length), (P.secs[k]'(by omega)).max = (r.sectors[k]).max := by intro k hk; rw [getP k hk]; rfl
  have dmin' : ∀ k (hk : k < r.sectors.length), (Q.secs[k]'(by omega)).min = (r.sectors[k]).min.val := by intro k hk; rw [getQ k hk]; rfl
  have dmax' : ∀ k (hk : k < r.sectors.length), (Q.secs[k]'(by omega)).max = (r.sectors[k]).max.val := by intro k hk; rw [getQ k hk]; rfl
  obtain ⟨hlink, hin⟩ := walk_linked hmQ (a := a.val) (b := b.val) (i := i) (j := j) (by omega) (by omega)
    (by simp only [Sec.contains, Fl.le_def, ccmp_le, cmin i hiN, cmax i hiN, dmin' i hiN, dmax' i hiN] at hia ⊢; exact hia)
    (by simp only [Sec.contains, Fl.le_def, ccmp_le, cmin j hjN, cmax j hjN, dmin' j hjN, dmax' j hjN] at hjb ⊢; exact hjb)
    (fun hlt => by
      obtain ⟨h1, h2⟩ := hup (by simpa using hlt)
      refine ⟨h1, fun k hk h3 h4 => ?_⟩
      have hkN : k < r.sectors.length := by omega
      have := h2 k (by omega) h3 h4
      rw [cmax k hkN] at this
      rw [dmax' k hkN]; simpa using this)
    (fun hlt => by
      obtain ⟨h1, h2⟩ := hdown (by simpa using hlt)
      refine ⟨h1, fun k hk h3 h4 => ?_⟩
      have hkN : k < r.sectors.length := by omega
      have := h2 k (by omega) h3 h4
      rw [cmin k hkN] at this
      rw [dmin' k hkN]; simpa using this)
  refine ⟨_, heq E c, ?_⟩
  rw [fold_fst]
  have posA : ∀ (x : ℝ) k (hk : k < r.sectors.length), pos Q x k = cl (r.sectors[k]).min.val (r.sectors[k]).max.val x := by
    intro x k hk
    rw [pos_eq Q x (by omega), dmin' k hk, dmax' k hk]
  have hvis : ∀ k ∈ visited i j, k < r.sectors.length := fun k hk => by
    obtain ⟨h, -⟩ := hin k hk; omega
  have hX : ((visited i j).map fun k => |pos Q b.val k - pos Q a.val k|).sum ≤ M := by
    have hsum := hlink.sum
    have hmono : ∀ k ∈ visited i j, (a.val ≤ b.val → pos Q a.val k ≤ pos Q b.val k) ∧ (b.val ≤ a.val → pos Q b.val k ≤ pos Q a.val k) := by
      intro k hk
      rw [posA _ k (hvis k hk), posA _ k (hvis k hk)]
      exact ⟨cl_mono, cl_mono⟩
    have ia := (bdIn a ha).1
    have ib := (bdIn b hb).1
    rcases le_total a.val b.val with hab | hab
    · have : ((visited i j).map fun k => |pos Q b.val k - pos Q a.val k|) = (visited i j).map fun k => pos Q b.val k - pos Q a.val k :=
        List.map_congr_left (fun k hk => abs_of_nonneg (by linarith [(hmono k hk).1 hab]))
      rw [this, hsum]; linarith [ia.1, ib.2]
    · have : ((visited i j).map fun k => |pos Q b.val k - pos Q a.val k|) = (visited i j).map fun k => -(pos Q b.val k - pos Q a.val k) :=
        List.map_congr_left (fun k hk => abs_of_nonpos (by linarith [(hmono k hk).2 hab]))
      have hneg : ((visited i j).map fun k => -(pos Q b.val k - pos Q a.val k)).sum = -((visited i j).map fun k => pos Q b.val k - pos Q a.val k).sum := by
        generalize visited i j = l
        induction l with
        | nil => simp
        | cons k l ih => simp only [List.map_cons, List.sum_cons, ih]; ring
      rw [this, hneg, hsum]; linarith [ia.2, ib.1]
  have hH0 : 0 ≤ H := by
    have h0 := hF.fit.mesh.length_pos
    have h1 := hF.fit.wide _ (List.getElem_mem h0)
    have h2 := hF.fit.narrow _ (List.getElem_mem h0)
    linarith
  have hHp : 0 ≤ H ^ ord useH := pow_nonneg hH0 _
  have hHp1 : H ^ ord useH ≤ 1 := pow_le_one₀ hH0 hF.fit.small
  set e : ℕ → ℝ := fun k => C1 * ((H ^ ord useH + τ) * |pos Q b.val k - pos Q a.val k| + (u + σ)) with he
  have e0 : ∀ k, 0 ≤ e k := fun k => by rw [he]; have : 0 ≤ C1 := by linarith
                                        positivity
  have hch := chain_fl (P := fun c => pr (valY c)) (K := 2 * M) (by linarith) hF.mu0 (y := y) (dy := dy) (step := P.stepY E useH a b) (p := pos Q a.val) (q := pos Q b.val) (e := e) c
    (fun k hk => by
      have hkN := hvis k hk
      have hs : r.sectors[k] ∈ r.sectors := List.getElem_mem hkN
      have hsol : SolvesOn (W (realSec r.sectors[k])) E.val (r.sectors[k]).min.val (r.sectors[k]).max.val y dy := hy _ (List.mem_map_of_mem hs)
      refine ⟨e0 k, fun c => ?_, ?_⟩
      · have := key fl H u mu σ τ W dmin dmax eps r.sectors eta vs th pru v0P E a b r.sectors[k] useH y dy hF' hσ0 h8 hτ1 hs hE ((bdIn a ha).2 _ hs) ((bdIn b hb).2 _ hs) hsol c
        have e1 : P.stepY E useH a b c k = ((sectorGen eps eta th pru (vs r.sectors[k]) v0P r.sectors[k]).propagate E useH c a b).1 := by
          unfold Prob.stepY
          rw [List.getElem?_eq_getElem (by omega), getP k hkN]
        rw [e1, he]
        simp only [posA _ k hkN]
        exact this
      · simp only [posA _ k hkN]
        have hsm := hF.fit.smooth _ (List.mem_map_of_mem (f := realSec) hs)
        have hle : (r.sectors[k]).min.val ≤ (r.sectors[k]).max.val := by
          have := hF.fit.wide _ (List.mem_map_of_mem (f := realSec) hs)
          simp only [realSec] at this; linarith
        exact flow_bound (by linarith) (pot_bound hsm hE) hsol (cl_mem hle _) (cl_mem hle _)) hlink
  refine hch.trans ?_
  have hsum : ((visited i j).map e).sum ≤ C1 * (M + 1) * (H ^ ord useH + ε) := by
    have ee : ((visited i j).map e).sum = C1 * (H ^ ord useH + τ) * ((visited i j).map fun k => |pos Q b.val k - pos Q a.val k|).sum + C1 * ((visited i j).length * (u + σ)) := by
      rw [he]
      generalize visited i j = l
      induction l with
      | nil => simp
      | cons k l ih => simp only [List.map_cons, List.sum_cons, ih, List.length_cons]; push_cast; ring
    rw [ee]
    have hC0 : 0 ≤ C1 := by linarith
    have h1 := mul_le_mul_of_nonneg_left hX (show 0 ≤ C1 * (H ^ ord useH + τ) by positivity)
    have h2 : ((visited i j).length : ℝ) * (u + σ) ≤ r.sectors.length * (u + σ) :=
      mul_le_mul_of_nonneg_right (by exact_mod_cast visited_length hiN hjN) hw0
    have h3 := mul_le_mul_of_nonneg_left (show ((visited i j).length : ℝ) * (u + σ) ≤ ε by linarith) hC0
    have h4 := mul_le_mul_of_nonneg_left (show τ ≤ ε by linarith) (show 0 ≤ C1 * M by positivity)
    have h5 : 0 ≤ C1 * H ^ ord useH := by positivity
    have e1 : C1 * (M + 1) * (H ^ ord useH + ε) = C1 * M * H ^ ord useH + C1 * M * ε + C1 * H ^ ord useH + C1 * ε := by ring
    have e2 : C1 * (H ^ ord useH + τ) * M = C1 * M * H ^ ord useH + C1 * M * τ := by ring
    rw [e1]; rw [e2] at h1; linarith
  have hC0 : 0 ≤ C1 := by linarith
  have hsum2 : ((visited i j).map e).sum ≤ C1 * (M + 1) * 2 := hsum.trans (mul_le_mul_of_nonneg_left (by linarith) (by positivity))
  have hs0 : 0 ≤ ((visited i j).map e).sum := List.sum_nonneg (by
    intro x hx
    obtain ⟨m, -, rfl⟩ := List.mem_map.mp hx
    exact e0 m)
  have x1 : Real.exp (2 * M * ((visited i j).map fun k => |pos Q b.val k - pos Q a.val k|).sum + ((visited i j).map e).sum) ≤ Real.exp (2 * M * M + C1 * (M + 1) * 2) :=
    Real.exp_le_exp.mpr (add_le_add (mul_le_mul_of_nonneg_left hX (by linarith)) hsum2)
  generalize hA0 : sz (pr (valY c) - (y a.val, dy a.val)) = A0
  have hA00 : 0 ≤ A0 := by rw [← hA0]; exact sz_nonneg _
  generalize hN0' : sz (y a.val, dy a.val) + mu = N0
  have hN00 : 0 ≤ N0 := by rw [← hN0']; exact add_nonneg (sz_nonneg _) hF.mu0
  have x2 : A0 + ((visited i j).map e).sum * N0 ≤ C1 * (M + 1) * (A0 + (H ^ ord useH + ε) * N0) := by
    have a1 := mul_le_mul_of_nonneg_right hsum hN00
    have a2 : A0 ≤ C1 * (M + 1) * A0 := le_mul_of_one_le_left hA00 hC1M
    have e1 : C1 * (M + 1) * (A0 + (H ^ ord useH + ε) * N0) = C1 * (M + 1) * A0 + C1 * (M + 1) * (H ^ ord useH + ε) * N0 := by ring
    rw [e1]; linarith
  have x3 : 0 ≤ A0 + (H ^ ord useH + ε) * N0 := by positivity
  calc _ ≤ Real.exp (2 * M * M + C1 * (M + 1) * 2) * (C1 * (M + 1) * (A0 + (H ^ ord useH + ε) * N0)) := mul_le_mul x1 x2 (by positivity) (Real.exp_pos _).le
    _ = G * (A0 + (H ^ ord useH + ε) * N0) := by rw [hG]; ring
    _ ≤ _ := mul_le_mul_of_nonneg_right (by linarith) x3

end Verif.Fp
