import Verif.Lemmas.MatscsMesh
import Verif.Lemmas.MatscsCoeff
import Verif.Lemmas.MatscsLit
import Verif.Props.Formulas
import Verif.Props.Convergence

/-!
# Coupled systems: C103 – C106

`calculateTM eps q eta (mkMSec c Q s) E δ use_h` is `Sector::calculateT` of a sector `s` of a coupled system with coefficients `c` and
eigenvectors `Q`, `problemM eps q eta vs Q secs xmin xmax` the problem on a mesh (`Model/MatscsCalc`); `q` gives the values of the
decimal literals of the generated formulas (the code's: `MTerm.lit`), `eta` the η functions, `eps` the code's `EPS`.
-/
namespace Verif.NP
open Verif.MFormulas Verif.Matscs Verif.Mesh Verif Verif.YT Verif.Spec Verif.CalcT Verif.Solver

attribute [local instance] Matrix.linftyOpNormedAddCommGroup Matrix.linftyOpNormedSpace Matrix.linftyOpNormedRing Matrix.linftyOpNormedAlgebra

section
variable {n r : ℕ}

theorem abs_le_norm {m k : Type} [Fintype m] [Fintype k] (A : Matrix m k ℝ) (i : m) (j : k) : |A i j| ≤ ‖A‖ :=
  (Finset.single_le_sum (f := fun j => |A i j|) (fun _ _ => abs_nonneg _) (Finset.mem_univ j)).trans (row_le A i)

theorem norm_le_entries {m : Type} [Fintype m] {A : Matrix m (Fin r) ℝ} {S : ℝ} (hS : 0 ≤ S) (h : ∀ i j, |A i j| ≤ S) : ‖A‖ ≤ r * S := by
  refine norm_le_rows (mul_nonneg (Nat.cast_nonneg _) hS) (fun i => ?_)
  refine (Finset.sum_le_sum (fun j _ => h i j)).trans (le_of_eq ?_)
  rw [Finset.sum_const, Finset.card_univ, Fintype.card_fin, nsmul_eq_mul]

/-- The values and derivatives of the block `u` of columns are `y` and `dy`. -/
def Holds (u : Matrix (Fin n ⊕ Fin n) (Fin r) ℝ) (y dy : Matrix (Fin n) (Fin r) ℝ) : Prop := ∀ i j, u (.inl i) j = y i j ∧ u (.inr i) j = dy i j

/-- Every entry of the values and derivatives of the block `u` is within `e` of `y` and `dy`. -/
def NearTo (e : ℝ) (u : Matrix (Fin n ⊕ Fin n) (Fin r) ℝ) (y dy : Matrix (Fin n) (Fin r) ℝ) : Prop :=
  ∀ i j, |u (.inl i) j - y i j| ≤ e ∧ |u (.inr i) j - dy i j| ≤ e

/-- Every entry of `y` and `dy` is at most `S`. -/
def SizeAt (S : ℝ) (y dy : Matrix (Fin n) (Fin r) ℝ) : Prop := ∀ i j, |y i j| ≤ S ∧ |dy i j| ≤ S

theorem Holds.eq {u : Matrix (Fin n ⊕ Fin n) (Fin r) ℝ} {y dy : ℝ → Matrix (Fin n) (Fin r) ℝ} {x : ℝ} (h : Holds u (y x) (dy x)) : u = stk y dy x := by
  ext i j
  cases i with
  | inl i => exact (h i j).1
  | inr i => exact (h i j).2

theorem nearTo_of_norm {u : Matrix (Fin n ⊕ Fin n) (Fin r) ℝ} {y dy : ℝ → Matrix (Fin n) (Fin r) ℝ} {x e : ℝ} (h : ‖u - stk y dy x‖ ≤ e) : NearTo e u (y x) (dy x) := fun i j =>
  ⟨(abs_le_norm (u - stk y dy x) (.inl i) j).trans h, (abs_le_norm (u - stk y dy x) (.inr i) j).trans h⟩

theorem SizeAt.norm {S : ℝ} (hS : 0 ≤ S) {y dy : ℝ → Matrix (Fin n) (Fin r) ℝ} {x : ℝ} (h : SizeAt S (y x) (dy x)) : ‖stk y dy x‖ ≤ r * S := by
  refine norm_le_entries hS (fun i j => ?_)
  cases i with
  | inl i => exact (h i j).1
  | inr i => exact (h i j).2

/-- **C103.** Every literal of the generated formula tables for coupled systems is a decimal form of a multiple of `1 / 40320`, accurate
to a relative `5·10⁻¹²`; those multiplying the identity matrix are exact. -/
theorem C103_literals : LitWithin (5 / 10 ^ 12) (MTerm.lit (K := ℝ)) := litWithin_code

set_option maxHeartbeats 800000 in
/-- **C104.** One step of a coupled system. For every size `n`, number of columns `r` and bound `M` there is a constant `C` such that
on every sector (forward or backward) of width `h ≤ 1`, for every coupled potential whose entries have sixteen derivatives bounded by `M`,
every energy up to `M`, coefficients accurate to `τ`, literals to `ρ`, η functions to `σ` (all at most 1), an orthogonal `Q`
that diagonalizes the computed mean value, and every solution `y` of `y'' = (V - E) y` (seen from the sector's starting end): applied to
the exact values at the start, `calculateT` over the full sector gives the exact values at the other end up to
`C (h^10 + h (ρ + τ) + σ)` (`h^9` without `use_h`), and over `δ` inside the sector up to `C (h^9 + h (ρ + τ) + σ + d)`, times their
size at the start, where `d` is the length of a skipped piece of length at most `eps`. -/
theorem C104_step (n r : ℕ) (M : ℝ) (hM : 0 ≤ M) : ∃ C : ℝ, ∀ (eps ρ σ τ : ℝ) (q : MTerm → ℝ) (eta : ℕ → ℝ → ℕ → ℝ) (V : ℝ → Mat n ℝ) (c : ℕ → Mat n ℝ)
    (Q : Mat n ℝ) (s : Sec ℝ) (E S : ℝ) (useH : Bool) (y dy : ℝ → Matrix (Fin n) (Fin r) ℝ) (u : Matrix (Fin n ⊕ Fin n) (Fin r) ℝ),
    0 ≤ eps → eps < s.max - s.min → s.max - s.min ≤ 1 → LitWithin ρ q → EtaWithin σ eta → 0 ≤ τ → ρ ≤ 1 → σ ≤ 1 → τ ≤ 1 →
    MSmoothOn M V s.min s.max → MCoeffWithin τ V s.min s.max c → Diagonalizes Q (c 0) → |E| ≤ M →
    MSolvesOn (orientM V s) E s.min s.max y dy → Holds u (y s.min) (dy s.min) → 0 ≤ S → SizeAt S (y s.min) (dy s.min) →
    NearTo (C * ((s.max - s.min) ^ (if useH then 10 else 9) + (s.max - s.min) * (ρ + τ) + σ) * S)
      ((tnOf (calculateTM eps q eta (mkMSec c Q s) E (s.max - s.min) useH)).t * u) (y s.max) (dy s.max) ∧
    ∀ δ d, 0 ≤ δ → δ ≤ s.max - s.min → 0 ≤ d → (δ ≤ eps → δ ≤ d) → (s.max - s.min - δ ≤ eps → s.max - s.min - δ ≤ d) →
      NearTo (C * ((s.max - s.min) ^ 9 + (s.max - s.min) * (ρ + τ) + σ + d) * S)
        ((tnOf (calculateTM eps q eta (mkMSec c Q s) E δ useH)).t * u) (y (s.min + δ)) (dy (s.min + δ)) := by
  have hL := lC_one (n := n) hM
  have hC := secC_one (n := n) hM
  have hX : 1 ≤ Real.exp (lC n M) := Real.one_le_exp (by linarith)
  have hr : (0 : ℝ) ≤ r := Nat.cast_nonneg _
  refine ⟨(secC n M + lC n M) * (Real.exp (lC n M) * r), ?_⟩
  intro eps ρ σ τ q eta V c Q s E S useH y dy u he0 hw h1 hq he τ0 ρ1 σ1 τ1 hV hc hQ hE hy hu hS hsz
  have hlt : s.min < s.max := by linarith
  have I : Ingr M ρ σ τ q eta V c Q s E := ⟨hM, τ0, τ1, σ1, ρ1, hq, he, hlt, h1, hV, hc, hQ, hE⟩
  have h0 : 0 ≤ s.max - s.min := by linarith
  rw [hu.eq]
  have hS1 := hsz.norm hS
  have hS2 : ∀ x ∈ Set.Icc s.min s.max, ‖stk y dy x‖ ≤ Real.exp (lC n M) * r * S := by
    intro x hx
    have := growth_fwd (orient_smooth hV) hM hE hy hx
    refine this.trans ?_
    rw [mul_assoc]
    refine mul_le_mul (Real.exp_le_exp.mpr ?_) hS1 (norm_nonneg _) (Real.exp_pos _).le
    calc lC n M * (x - s.min) ≤ lC n M * 1 := mul_le_mul_of_nonneg_left (by linarith [hx.2]) (by linarith)
      _ = _ := mul_one _
  have rS : 0 ≤ r * S := mul_nonneg hr hS
  have XS : 0 ≤ Real.exp (lC n M) * r * S := mul_nonneg (mul_nonneg (by linarith) hr) hS
  have hρ := hq.1
  have hσ := he.nonneg
  constructor
  · refine nearTo_of_norm ((tm_full I he0 hw useH hy (hS2 _ ⟨le_rfl, hlt.le⟩)).trans ?_)
    have : 0 ≤ (s.max - s.min) ^ ordM useH + (s.max - s.min) * (ρ + τ) + σ := by positivity
    show secC n M * ((s.max - s.min) ^ ordM useH + (s.max - s.min) * (ρ + τ) + σ) * _ ≤ (secC n M + lC n M) * (Real.exp (lC n M) * r) * ((s.max - s.min) ^ ordM useH + (s.max - s.min) * (ρ + τ) + σ) * S
    generalize (s.max - s.min) ^ ordM useH + (s.max - s.min) * (ρ + τ) + σ = P at *
    have := mul_nonneg (mul_nonneg (by linarith : 0 ≤ lC n M) this) XS
    linarith
  · intro δ d hδ0 hδ hd k1 k2
    refine nearTo_of_norm ((tm_mid I he0 hd useH hy hS2 ⟨hδ0, hδ⟩ k1 k2).trans ?_)
    have : 0 ≤ (s.max - s.min) ^ 9 + (s.max - s.min) * (ρ + τ) + σ := by positivity
    show (secC n M * ((s.max - s.min) ^ 9 + (s.max - s.min) * (ρ + τ) + σ) + lC n M * d) * _ ≤ _
    generalize (s.max - s.min) ^ 9 + (s.max - s.min) * (ρ + τ) + σ = P at *
    have q1 := mul_nonneg (mul_nonneg (by linarith : 0 ≤ lC n M) this) XS
    have q2 := mul_nonneg (mul_nonneg (by linarith : 0 ≤ secC n M) hd) XS
    linarith

/-- **C105.** `propagateColumn` converges. For every size `n`, number of columns `r` and bound `M` there is a constant `C` such that on
every mesh of sectors (forward or backward) of width at most `H`, for every coupled potential whose entries have sixteen derivatives
bounded by `M` in each sector (jumps at mesh points allowed), every energy up to `M`, ingredients accurate to `ε`, and fine enough
that `C (H + ε) ≤ 1`: for every solution `y` of `y'' = (V - E) y` and all points `a`, `b` of the domain in either order,
`propagateColumn` from `a` to `b` with the exact values at `a` succeeds, and every entry of the result differs from the exact one at `b`
by at most `C (H^9 + ε + d)` (`H^8` without `use_h`) times the size of the values at `a`, where `d` bounds the distance to a mesh point
of end points closer than `eps` to it (`d = 0` for mesh points). -/
theorem C105_propagateColumn (n r : ℕ) (M : ℝ) (hM : 1 ≤ M) : ∃ C : ℝ, 1 ≤ C ∧ ∀ (eps ε H : ℝ) (q : MTerm → ℝ) (eta : ℕ → ℝ → ℕ → ℝ) (W : Sec ℝ → ℝ → Mat n ℝ)
    (vs : Sec ℝ → ℕ → Mat n ℝ) (Q : Sec ℝ → Mat n ℝ) (secs : List (Sec ℝ)) (dmin dmax E S a b d : ℝ) (useH : Bool) (y dy : ℝ → Matrix (Fin n) (Fin r) ℝ) (u : Yn n r ℝ),
    MFitMesh eps M H W dmin dmax secs → MAccurateTo ε W secs q eta vs Q → C * (H + ε) ≤ 1 → dmax - dmin ≤ M → |E| ≤ M →
    MSolvesMesh W E secs y dy → a ∈ Set.Icc dmin dmax → b ∈ Set.Icc dmin dmax → Holds u.y (y a) (dy a) → 0 ≤ S → SizeAt S (y a) (dy a) →
    0 ≤ d → (∀ s ∈ secs, Skips eps d s.min s.max a ∧ Skips eps d s.min s.max b) →
    ∃ res, (problemM eps q eta vs Q secs dmin dmax).propagateColumn E u a b useH = .ok res ∧
      NearTo (C * (H ^ (if useH then 9 else 8) + ε + d) * S) res.y (y b) (dy b) := by
  have hM0 : 0 ≤ M := by linarith
  have hC := secC_one (n := n) hM0
  have hL := lC_one (n := n) hM0
  have hr : (0 : ℝ) ≤ r := Nat.cast_nonneg _
  have m0 : 0 ≤ meshC n M := by unfold meshC; positivity
  refine ⟨2 * secC n M + meshC n M * r, by nlinarith [mul_nonneg m0 hr], ?_⟩
  intro eps ε H q eta W vs Q secs dmin dmax E S a b d useH y dy u hf ⟨hε1, ρ, σ, τ, hq, he, hτ, hv, hε⟩ hfine hd hE hy ha hb hu hS hsz d0 hsk
  have ε0 : 0 ≤ ε := le_trans (add_nonneg (add_nonneg hq.1 hτ) (mul_nonneg (Nat.cast_nonneg _) he.nonneg)) hε
  have H0 : 0 ≤ H := by
    obtain ⟨s, hs⟩ := List.exists_mem_of_ne_nil _ (show secs ≠ [] from fun h => hf.mesh.tiling.nonempty (by simp [bounds, h]))
    linarith [hf.narrow s hs, hf.wide s hs, hf.eps_nonneg]
  have fine : 2 * secC n M * (H + ε) ≤ 1 := by
    have := mul_nonneg (mul_nonneg m0 hr) (add_nonneg H0 ε0)
    linarith
  obtain ⟨res, h1, h2⟩ := (mesh_near hM hf hq he hτ hv hε hε1 hd hE fine useH).2 r y dy hy a ha b hb d d0 hsk u hu.eq
  refine ⟨res, h1, nearTo_of_norm (h2.trans ?_)⟩
  have P0 : 0 ≤ H ^ (if useH then 9 else 8) + ε + d := by positivity
  generalize H ^ (if useH then 9 else 8) + ε + d = P at *
  have k1 := mul_le_mul_of_nonneg_left (hsz.norm hS) (mul_nonneg m0 P0)
  have k2 : 0 ≤ 2 * secC n M * P * S := mul_nonneg (mul_nonneg (by linarith) P0) hS
  linarith

/-- **C106.** On the meshes of C105 every transfer matrix is invertible, so that (C57) propagation composes and is reversible: from `a` to `b`
and on to `c` is from `a` to `c`, and back from `b` to `a` returns the start exactly, energy derivatives included. -/
theorem C106_fine_mesh_reversible (n r : ℕ) (M : ℝ) (hM : 1 ≤ M) : ∃ C : ℝ, 1 ≤ C ∧ ∀ (eps ε H : ℝ) (q : MTerm → ℝ) (eta : ℕ → ℝ → ℕ → ℝ) (W : Sec ℝ → ℝ → Mat n ℝ)
    (vs : Sec ℝ → ℕ → Mat n ℝ) (Q : Sec ℝ → Mat n ℝ) (secs : List (Sec ℝ)) (dmin dmax E : ℝ) (useH : Bool),
    MFitMesh eps M H W dmin dmax secs → MAccurateTo ε W secs q eta vs Q → C * (H + ε) ≤ 1 → dmax - dmin ≤ M → |E| ≤ M →
    (∀ s ∈ secs, ∀ δ, 0 ≤ δ → δ ≤ s.max - s.min → IsUnit (tnOf (calculateTM eps q eta (mkMSec (vs s) (Q s) s) E δ useH)).t.det) ∧
    ∀ (y : Yn n r ℝ) (a b c : ℝ), a ∈ Set.Icc dmin dmax → b ∈ Set.Icc dmin dmax → c ∈ Set.Icc dmin dmax →
      ∃ u w, (problemM eps q eta vs Q secs dmin dmax).propagateColumn E y a b useH = .ok u ∧
        (problemM eps q eta vs Q secs dmin dmax).propagateColumn E u b c useH = .ok w ∧
        (problemM eps q eta vs Q secs dmin dmax).propagateColumn E y a c useH = .ok w ∧
        (problemM eps q eta vs Q secs dmin dmax).propagateColumn E u b a useH = .ok y := by
  refine ⟨2 * secC n M, by linarith [secC_one (n := n) (show 0 ≤ M by linarith)], ?_⟩
  intro eps ε H q eta W vs Q secs dmin dmax E useH hf ⟨hε1, ρ, σ, τ, hq, he, hτ, hv, hε⟩ hfine hd hE
  have good := (mesh_near hM hf hq he hτ hv hε hε1 hd hE hfine useH).1
  refine ⟨fun s hs δ h0 h1 => good.inv (sectorM eps q eta (vs s) (Q s) s) (List.mem_map_of_mem hs) δ h0 h1, ?_⟩
  intro y a b c ha hb hc
  exact C57_composes_reversible good y ha hb hc

/-- **C105, the code's ingredients.** With the literals of the source, the η functions of `calculateEta`, the nine coefficients of
`getCoefficients` sampled from a potential that inside each sector has sixteen derivatives bounded by `M`, and exact orthogonal
eigenvectors of the computed mean values, the accuracy is `6·10⁻¹² M + 37 M H^12`. -/
theorem C105_code_accuracy {M H : ℝ} (hM : 1 ≤ M) (junk : ℕ → ℝ) {V : ℝ → Mat n ℝ} {W : Sec ℝ → ℝ → Mat n ℝ} {Q : Sec ℝ → Mat n ℝ} {dmin dmax : ℝ} {secs : List (Sec ℝ)}
    (hf : MFitMesh (1 / 10 ^ 12) M H W dmin dmax secs) (hV : ∀ s ∈ secs, ∀ x, s.min < x → x < s.max → V x = W s x)
    (hQ : ∀ s ∈ secs, Diagonalizes (Q s) (coeffsM V s 0)) (hd : dmax - dmin ≤ M) (h1 : 6 * M / 10 ^ 12 + 37 * M * H ^ 12 ≤ 1) :
    MAccurateTo (6 * M / 10 ^ 12 + 37 * M * H ^ 12) W secs MTerm.lit (etaCode junk) (coeffsM V) Q := by
  have H0 : 0 ≤ H := by
    obtain ⟨s, hs⟩ := List.exists_mem_of_ne_nil _ (show secs ≠ [] from fun h => hf.mesh.tiling.nonempty (by simp [bounds, h]))
    linarith [hf.narrow s hs, hf.wide s hs, hf.eps_nonneg]
  refine ⟨h1, _, _, 12 * M / 10 ^ 14 + 37 * M * H ^ 12, litWithin_code, etaWithin_code junk, by positivity, fun s hs => ⟨?_, hQ s hs⟩, ?_⟩
  · exact mcoeff_code (by linarith) (by linarith [hf.wide s hs, hf.eps_nonneg]) (hf.narrow s hs) hf.small (hf.smooth s hs) (hV s hs)
  · have hc := chn_count (w := 1 / 10 ^ 12) (chn_of_tiling _ hf.mesh.tiling) (fun s hs => (hf.wide s hs).le)
    have : (secs.length : ℝ) ≤ M * 10 ^ 12 := by
      have := hc.trans hd
      rw [mul_one_div, div_le_iff₀ (by norm_num)] at this
      exact this
    have h2 : (secs.length : ℝ) * (1 / 10 ^ 33) ≤ M * 10 ^ 12 * (1 / 10 ^ 33) := mul_le_mul_of_nonneg_right this (by norm_num)
    have h3 : M * 10 ^ 12 * (1 / 10 ^ 33) ≤ M / 10 ^ 14 := by
      rw [show M * 10 ^ 12 * (1 / 10 ^ 33) = M * (1 / 10 ^ 21) by ring, div_eq_mul_one_div]
      exact mul_le_mul_of_nonneg_left (by norm_num) (by linarith)
    have h4 : 5 / 10 ^ 12 ≤ 5 * M / 10 ^ 12 := by
      rw [div_le_div_iff_of_pos_right (by norm_num)]; linarith
    linarith

/-! ### A coupled system with a jump -/

/-- coupled potentials with common eigenvectors `(3, 4)`, `(-4, 3)` and the common eigenvalue 25 -/
def jA : Mat 2 ℝ := !![9, 12; 12, 16]
def jB : Mat 2 ℝ := !![-7, 24; 24, 7]
noncomputable def jQ : Mat 2 ℝ := !![3 / 5, -4 / 5; 4 / 5, 3 / 5]

/-- a forward sector followed by a backward one -/
def jSecs (H : ℝ) : List (Sec ℝ) := [⟨0, H, .forward⟩, ⟨H, 2 * H, .backward⟩]
def jW (s : Sec ℝ) (_ : ℝ) : Mat 2 ℝ := if s.dir = .backward then jB else jA
def jV (s : Sec ℝ) (k : ℕ) : Mat 2 ℝ := if k = 0 then jW s 0 else 0

/-- `y = (1 + x) (3, 4)` solves `y'' = (V - 25) y` -/
def jY (x : ℝ) : Matrix (Fin 2) (Fin 1) ℝ := !![3 * (1 + x); 4 * (1 + x)]
def jD (_ : ℝ) : Matrix (Fin 2) (Fin 1) ℝ := !![3; 4]

theorem j_mem {H : ℝ} {s : Sec ℝ} (hs : s ∈ jSecs H) : s = ⟨0, H, .forward⟩ ∨ s = ⟨H, 2 * H, .backward⟩ := by simpa [jSecs] using hs

theorem j_cases (s : Sec ℝ) : (∀ x, jW s x = jA) ∨ ∀ x, jW s x = jB := by
  by_cases h : s.dir = .backward
  · exact .inr fun x => by simp [jW, h]
  · exact .inl fun x => by simp [jW, h]

theorem j_entry (s : Sec ℝ) (x : ℝ) (i j : Fin 2) : |jW s x i j| ≤ 25 := by
  rcases j_cases s with h | h <;> rw [h] <;> fin_cases i <;> fin_cases j <;> simp [jA, jB] <;> norm_num

theorem smooth_const {M c : ℝ} (h : |c| ≤ M) (a b : ℝ) : SmoothOn M (fun _ => c) a b := by
  refine ⟨fun k _ => if k = 0 then c else 0, fun x _ => by simp, fun j hj x _ => ?_, fun j hj x _ => ?_⟩
  · simpa using hasDerivWithinAt_const x (Set.Icc a b) (if j = 0 then c else (0 : ℝ))
  · dsimp only; split
    · exact h
    · simpa using (abs_nonneg _).trans h

theorem legendreCoeff_const (c a b : ℝ) {k : ℕ} (hk : k < 16) : legendreCoeff (fun _ => c) a b k = if k = 0 then c else 0 := by
  rw [Legendre.legendreCoeff_poly (fun _ => c) 1 (fun _ => c) (by intro s; simp) k, Finset.sum_range_one]
  split
  · rename_i h; subst h
    have : ∀ t : ℝ, (2 * t - 1) ^ 0 * shiftedP 0 t = 1 := fun t => by simp [shiftedP]
    simp only [this, intervalIntegral.integral_const]; simp
  · rename_i h
    rw [Legendre.moment_zero hk (by omega)]; simp

theorem j_fit {H : ℝ} (h0 : 0 < H) (h1 : H ≤ 1) : MFitMesh 0 25 H jW 0 (2 * H) (jSecs H) where
  mesh := by
    refine ⟨⟨by simp [jSecs, bounds], ?_, ?_, ?_⟩, ?_⟩
    · intro p hp; simp [jSecs, bounds] at hp; rw [← hp]
    · intro p hp; simp [jSecs, bounds] at hp; rw [← hp]
    · intro i hi
      simp [jSecs, bounds] at hi
      subst hi
      exact Or.inl rfl
    · intro s hs
      rcases j_mem hs with rfl | rfl <;> simp <;> linarith
  directed := by intro s hs; rcases j_mem hs with rfl | rfl <;> simp
  eps_nonneg := le_rfl
  wide := by intro s hs; rcases j_mem hs with rfl | rfl <;> simp <;> linarith
  narrow := by intro s hs; rcases j_mem hs with rfl | rfl <;> simp <;> linarith
  small := h1
  smooth := by
    intro s hs i j
    have e : (fun x => jW s x i j) = fun _ => jW s 0 i j := by
      funext x; rfl
    rw [e]
    exact smooth_const (j_entry s 0 i j) _ _

theorem j_diag (s : Sec ℝ) : Diagonalizes jQ (jV s 0) := by
  have e : jV s 0 = jW s 0 := by simp [jV]
  rw [e]
  refine ⟨?_, ?_⟩
  · ext i j; fin_cases i <;> fin_cases j <;> simp [jQ, Matrix.mul_apply, Fin.sum_univ_two] <;> norm_num
  · intro i j hij
    rcases j_cases s with h | h <;> rw [h] <;> fin_cases i <;> fin_cases j <;> simp [jQ, jA, jB, Matrix.mul_apply, Fin.sum_univ_two] at hij ⊢ <;> norm_num

/-- Exact ingredients are accurate to 0. -/
theorem j_accurate (H : ℝ) : MAccurateTo 0 jW (jSecs H) exactLit (fun _ Z i => Eta.eta i Z) jV (fun _ => jQ) := by
  refine ⟨zero_le_one, 0, 0, 0, ⟨le_rfl, fun t _ => by simp⟩, fun n _ Z i _ => by simp, le_rfl, fun s hs => ⟨?_, j_diag s⟩, by simp⟩
  intro k hk i j
  have e : (fun x => jW s x i j) = fun _ => jW s 0 i j := by
    funext x; rfl
  rw [e, legendreCoeff_const _ _ _ (by omega)]
  by_cases h : k = 0 <;> simp [jV, h]

theorem j_solves (H : ℝ) : MSolvesMesh jW 25 (jSecs H) jY jD := by
  intro s hs
  refine ⟨fun x hx i j => ?_, fun x hx i j => ?_⟩
  · have h3 : HasDerivAt (fun x : ℝ => 3 * (1 + x)) 3 x := by simpa using ((hasDerivAt_id x).const_add 1).const_mul 3
    have h4 : HasDerivAt (fun x : ℝ => 4 * (1 + x)) 4 x := by simpa using ((hasDerivAt_id x).const_add 1).const_mul 4
    fin_cases i <;> fin_cases j
    · simpa [jY, jD] using h3.hasDerivWithinAt
    · simpa [jY, jD] using h4.hasDerivWithinAt
  · have e : ((jW s x - (25 : ℝ) • (1 : Mat 2 ℝ)) * jY x : Matrix (Fin 2) (Fin 1) ℝ) i j = 0 := by
      rcases j_cases s with h | h <;> rw [h] <;> fin_cases i <;> fin_cases j <;> simp [jY, jA, jB, Matrix.mul_apply, Fin.sum_univ_two, Matrix.one_apply] <;> ring
    rw [e]
    exact hasDerivWithinAt_const x _ _

/-- The hypotheses of C105 are met, however large the constant, by a coupled system with a jump, from the right end of a backward
sector to the left end of a forward one: the error is at most `C H^9 S`. -/
example : ∃ C : ℝ, 1 ≤ C ∧ ∀ H, 0 < H → H ≤ 1 / C → ∃ res,
    (problemM 0 exactLit (fun _ Z i => Eta.eta i Z) jV (fun _ => jQ) (jSecs H) 0 (2 * H)).propagateColumn 25 ⟨Matrix.fromRows (jY (2 * H)) (jD (2 * H)), 0⟩ (2 * H) 0 true = .ok res ∧
      NearTo (C * (H ^ 9 + 0 + 0) * 12) res.y (jY 0) (jD 0) := by
  obtain ⟨C, hC, key⟩ := C105_propagateColumn 2 1 25 (by norm_num)
  refine ⟨C, hC, fun H h0 hH => ?_⟩
  have hC0 : 0 < C := by linarith
  have h1 : H ≤ 1 := hH.trans (by rw [div_le_one hC0]; exact hC)
  have hCH : C * H ≤ 1 := by rw [le_div_iff₀ hC0] at hH; linarith
  have := key 0 0 H exactLit (fun _ Z i => Eta.eta i Z) jW jV (fun _ => jQ) (jSecs H) 0 (2 * H) 25 12 (2 * H) 0 0 true jY jD ⟨Matrix.fromRows (jY (2 * H)) (jD (2 * H)), 0⟩
    (j_fit h0 h1) (j_accurate H) (by linarith) (by linarith) (by norm_num) (j_solves H) ⟨by linarith, le_rfl⟩ ⟨le_rfl, by linarith⟩
    (fun i j => ⟨rfl, rfl⟩) (by norm_num) (by
      intro i j
      have a1 : |1 + 2 * H| ≤ 3 := by rw [abs_of_nonneg (by linarith)]; linarith
      fin_cases i <;> fin_cases j <;> simp [jY, jD] <;> first | linarith | (constructor <;> linarith)) le_rfl (by
      intro s hs
      rcases j_mem hs with rfl | rfl <;> exact ⟨fun a b => ⟨fun c => absurd a (by linarith), fun c => absurd b (by linarith)⟩, fun a b => ⟨fun c => absurd a (by linarith), fun c => absurd b (by linarith)⟩⟩)
  simpa using this

/-- The hypotheses of C104 are met by the same system, with positive tolerances. -/
example : ∃ C : ℝ, ∀ H, 0 < H → H ≤ 1 →
    NearTo (C * (H ^ 10 + H * (1 / 10 + 0) + 1 / 20) * 12)
      ((tnOf (calculateTM (H / 2) (fun t => if t.w = [] then exactLit t else exactLit t * (11 / 10)) (fun _ Z i => Eta.eta i Z + 1 / 20) (mkMSec (jV ⟨0, H, .forward⟩) jQ ⟨0, H, .forward⟩) 25 H true)).t *
        Matrix.fromRows (jY 0) (jD 0)) (jY H) (jD H) := by
  obtain ⟨C, key⟩ := C104_step 2 1 25 (by norm_num)
  refine ⟨C, fun H h0 h1 => ?_⟩
  have hs : (⟨0, H, .forward⟩ : Sec ℝ) ∈ jSecs H := by simp [jSecs]
  have hf := j_fit h0 h1
  obtain ⟨-, ρ, σ, τ, -, -, hτ, hv, -⟩ := j_accurate H
  have acc := (j_accurate H).2
  have := (key (H / 2) (1 / 10) (1 / 20) 0 (fun t => if t.w = [] then exactLit t else exactLit t * (11 / 10)) (fun _ Z i => Eta.eta i Z + 1 / 20) (jW ⟨0, H, .forward⟩) (jV ⟨0, H, .forward⟩)
    jQ ⟨0, H, .forward⟩ 25 12 true jY jD (Matrix.fromRows (jY 0) (jD 0)) (by linarith) (by simp; linarith) (by simpa using h1)
    ⟨by norm_num, fun t _ => ?_⟩ (fun n _ Z i _ => by simp) le_rfl (by norm_num) (by norm_num) (by norm_num) (hf.smooth _ hs) ?_ (j_diag _) (by norm_num)
    (j_solves H _ hs) (fun i j => ⟨rfl, rfl⟩) (by norm_num) ?_).1
  · simpa using this
  · by_cases hw : t.w = []
    · simp only [hw, if_true, sub_self, abs_zero]
      exact ⟨by positivity, fun _ => trivial⟩
    · simp only [hw, if_false]
      refine ⟨?_, fun h => h.elim⟩
      rw [show exactLit t * (11 / 10) - exactLit t = 1 / 10 * exactLit t by ring, abs_mul, abs_of_nonneg (by norm_num : (0 : ℝ) ≤ 1 / 10)]
  · intro k hk i j
    have e : (fun x => jW ⟨0, H, .forward⟩ x i j) = fun _ => jW ⟨0, H, .forward⟩ 0 i j := by
      funext x; rfl
    rw [e, legendreCoeff_const _ _ _ (by omega)]
    by_cases h : k = 0 <;> simp [jV, h]
  · intro i j
    fin_cases i <;> fin_cases j <;> simp [jY, jD] <;> norm_num

/-- C106 on the same system. -/
example : ∃ C : ℝ, 1 ≤ C ∧ ∀ H, 0 < H → H ≤ 1 / C → ∀ (y : Yn 2 3 ℝ), ∃ u,
    (problemM 0 exactLit (fun _ Z i => Eta.eta i Z) jV (fun _ => jQ) (jSecs H) 0 (2 * H)).propagateColumn 25 y (2 * H) (H / 3) true = .ok u ∧
    (problemM 0 exactLit (fun _ Z i => Eta.eta i Z) jV (fun _ => jQ) (jSecs H) 0 (2 * H)).propagateColumn 25 u (H / 3) (2 * H) true = .ok y := by
  obtain ⟨C, hC, key⟩ := C106_fine_mesh_reversible 2 3 25 (by norm_num)
  refine ⟨C, hC, fun H h0 hH y => ?_⟩
  have hC0 : 0 < C := by linarith
  have h1 : H ≤ 1 := hH.trans (by rw [div_le_one hC0]; exact hC)
  have hCH : C * H ≤ 1 := by rw [le_div_iff₀ hC0] at hH; linarith
  obtain ⟨u, -, h2, -, -, h3⟩ := (key 0 0 H exactLit (fun _ Z i => Eta.eta i Z) jW jV (fun _ => jQ) (jSecs H) 0 (2 * H) 25 true (j_fit h0 h1) (j_accurate H) (by linarith) (by linarith) (by norm_num)).2
    y (2 * H) (H / 3) 0 ⟨by linarith, le_rfl⟩ ⟨by linarith, by linarith⟩ ⟨le_rfl, by linarith⟩
  exact ⟨u, h2, h3⟩

/-- The code's own ingredients on a constant coupled potential with 100 times narrower sectors than the bound: all hypotheses of
`C105_code_accuracy` are met. -/
example (junk : ℕ → ℝ) : MAccurateTo (6 * 25 / 10 ^ 12 + 37 * 25 * (1 / 100) ^ 12) (fun _ _ => jA) (jSecs (1 / 100)) MTerm.lit (etaCode junk) (coeffsM (fun _ => jA)) (fun _ => jQ) := by
  have hf := j_fit (H := 1 / 100) (by norm_num) (by norm_num)
  refine C105_code_accuracy (V := fun _ => jA) (dmin := 0) (dmax := 2 * (1 / 100)) (by norm_num) junk ⟨hf.mesh, hf.directed, by norm_num, ?_, hf.narrow, hf.small, ?_⟩ (fun _ _ _ _ _ => rfl) ?_ (by norm_num) (by norm_num)
  · intro s hs; rcases j_mem hs with rfl | rfl <;> norm_num
  · intro s hs i j
    have := j_entry ⟨0, 1, .forward⟩ 0 i j
    simp only [jW, reduceCtorEq, if_false] at this
    exact smooth_const this _ _
  · intro s hs
    have hlt : s.min ≠ s.max := by
      rcases j_mem hs with rfl | rfl <;> norm_num
    have hd := j_diag ⟨0, 1, .forward⟩
    simp only [jV, jW, reduceCtorEq, if_false, if_true] at hd
    have e : coeffsM (fun _ => jA) s 0 = (∑ j ∈ Finset.range 10, (Legendre.weight 10 0 j : ℝ)) • jA := by
      ext i j
      have := Legendre.coeff_scaled (n := 9) (by norm_num) (fun _ => jA i j) hlt 0
      simp only [pow_zero, mul_one, one_mul] at this
      show Legendre.getCoefficients 9 (fun _ => jA i j) s.min s.max 0 = _
      rw [this, ← Finset.sum_mul]; rfl
    refine ⟨hd.orth, ?_⟩
    rw [e, Matrix.mul_smul, Matrix.smul_mul]
    exact hd.diag.smul _

end
end Verif.NP
