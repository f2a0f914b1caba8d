import Verif.Props.MatscsConverge
import Verif.Lemmas.MatscsDualMesh
import Verif.Lemmas.MatscsFamily

/-!
# The energy derivative propagated with the solution of a coupled system

`Matscs::propagateColumn` carries, beside the values of a block of solutions, their derivatives with respect to the energy
(`matscs/sector.cpp` 62-93, 116-138, 194-215). They converge, with the order of the values, to the derivatives of the exact solutions.
-/
namespace Verif.Matscs
open Verif.MFormulas Verif.Mesh Verif Verif.NP

attribute [local instance] Matrix.linftyOpNormedAddCommGroup Matrix.linftyOpNormedSpace Matrix.linftyOpNormedRing Matrix.linftyOpNormedAlgebra

section
variable {n r : ℕ}

/-- The entries of the families `f`, `df` of matrices are differentiable at `E` with the entries of `e`, `de` as derivatives. -/
def DerivAt (f df : ℝ → Matrix (Fin n) (Fin r) ℝ) (e de : Matrix (Fin n) (Fin r) ℝ) (E : ℝ) : Prop :=
  ∀ i j, HasDerivAt (fun F => f F i j) (e i j) E ∧ HasDerivAt (fun F => df F i j) (de i j) E

set_option maxHeartbeats 800000 in
/-- **C111.** Let `f F`, `df F` be a block of solutions at energy `F`, for every `F`, differentiable in `F` at `E` at the starting point `a`.
On a mesh fine enough, `propagateColumn` at energy `E` from `a` to `b`, started with the exact values and their energy derivatives, succeeds; the
exact solution is differentiable in the energy at `b`, and every entry of the values and of the energy derivatives returned differs from the exact
one by at most `C (H^9 + ε + d)` (`H^8` without `use_h`) times the size of the values and energy derivatives at `a`. -/
theorem C111_energy_derivative (n r : ℕ) (M : ℝ) (hM : 1 ≤ M) : ∃ C : ℝ, 1 ≤ C ∧ ∀ (eps ε H : ℝ) (q : MTerm → ℝ) (eta : ℕ → ℝ → ℕ → ℝ) (W : Sec ℝ → ℝ → Mat n ℝ)
    (vs : Sec ℝ → ℕ → Mat n ℝ) (Q : Sec ℝ → Mat n ℝ) (secs : List (Sec ℝ)) (dmin dmax E S a b d : ℝ) (useH : Bool) (f df : ℝ → ℝ → Matrix (Fin n) (Fin r) ℝ)
    (e de : Matrix (Fin n) (Fin r) ℝ) (u : Yn n r ℝ),
    MFitMesh eps M H W dmin dmax secs → MAccurateTo ε W secs q eta vs Q → C * (H + ε) ≤ 1 → dmax - dmin ≤ M → |E| ≤ M →
    (∀ F, MSolvesMesh W F secs (f F) (df F)) → a ∈ Set.Icc dmin dmax → b ∈ Set.Icc dmin dmax → DerivAt (fun F => f F a) (fun F => df F a) e de E →
    Holds u.y (f E a) (df E a) → Holds u.yE e de → 0 ≤ S → SizeAt S (f E a) (df E a) → SizeAt S e de →
    0 ≤ d → (∀ s ∈ secs, Skips eps d s.min s.max a ∧ Skips eps d s.min s.max b) →
    ∃ res e' de', (problemM eps q eta vs Q secs dmin dmax).propagateColumn E u a b useH = .ok res ∧ DerivAt (fun F => f F b) (fun F => df F b) e' de' E ∧
      NearTo (C * (H ^ (if useH then 9 else 8) + ε + d) * S) res.y (f E b) (df E b) ∧
      NearTo (C * (H ^ (if useH then 9 else 8) + ε + d) * S) res.yE e' de' := by
  have hM0 : 0 ≤ M := by linarith
  have hC := kC_one (n := n) hM0
  have hL := lC_one (n := n) hM0
  have hD : 0 ≤ lD n M := by unfold lD; linarith
  have hr : (0 : ℝ) ≤ r := Nat.cast_nonneg _
  have m0 : 0 ≤ meshD n M := by unfold meshD; positivity
  refine ⟨5 * kC n M + meshD n M * r, by nlinarith [mul_nonneg m0 hr], ?_⟩
  intro eps ε H q eta W vs Q secs dmin dmax E S a b d useH f df e de u hf ⟨hε1, ρ, σ, τ, hq, he, hτ, hv, hε⟩ hfine hd hE hfam ha hb hder hu huE hS hsz hszE d0 hsk
  have ε0 : 0 ≤ ε := le_trans (add_nonneg (add_nonneg hq.1 hτ) (mul_nonneg (Nat.cast_nonneg _) he.nonneg)) hε
  have hp : ∀ s ∈ secs, s.min < s.max := fun s hs => by linarith [hf.wide s hs, hf.eps_nonneg]
  have H0 : 0 ≤ H := by
    obtain ⟨s, hs⟩ := List.exists_mem_of_ne_nil _ (show secs ≠ [] from fun h => hf.mesh.tiling.nonempty (by simp [bounds, h]))
    linarith [hf.narrow s hs, hp s hs]
  have fine : 5 * kC n M * (H + ε) ≤ 1 := by
    have := mul_nonneg (mul_nonneg m0 hr) (add_nonneg H0 ε0)
    linarith
  obtain ⟨z, dz, hz, z1, z2, hz'⟩ := mfamily_deriv hM0 hE (chn_of_tiling _ hf.mesh.tiling) hp hf.smooth hfam ha (fun i j => (hder i j).1) (fun i j => (hder i j).2)
  have hu2 : Holds u.yE (z a) (dz a) := by rw [z1, z2]; exact huE
  obtain ⟨res, h1, h2⟩ := (mesh_near2 hM hf hq he hτ hv hε hε1 hd hE fine useH).2 r (f E) (df E) z dz (hfam E) hz a ha b hb d d0 hsk u (Prod.ext hu.eq hu2.eq)
  have hn : ‖stk2 (f E) (df E) z dz a‖ ≤ r * S := by
    refine max_le (hsz.norm hS) ?_
    have : SizeAt S (z a) (dz a) := by rw [z1, z2]; exact hszE
    exact this.norm hS
  have h3 : ‖(res.y, res.yE) - stk2 (f E) (df E) z dz b‖ ≤ (5 * kC n M + meshD n M * r) * (H ^ (if useH then 9 else 8) + ε + d) * S := by
    refine h2.trans ?_
    have P0 : 0 ≤ H ^ (if useH then 9 else 8) + ε + d := by positivity
    generalize H ^ (if useH then 9 else 8) + ε + d = P at *
    have k1 := mul_le_mul_of_nonneg_left hn (mul_nonneg m0 P0)
    have k2 : 0 ≤ 5 * kC n M * P * S := mul_nonneg (mul_nonneg (by linarith) P0) hS
    linarith
  refine ⟨res, z b, dz b, h1, fun i j => hz' b hb i j, nearTo_of_norm (le_trans ?_ h3), nearTo_of_norm (le_trans ?_ h3)⟩
  · exact norm_fst_le ((res.y, res.yE) - stk2 (f E) (df E) z dz b)
  · exact norm_snd_le ((res.y, res.yE) - stk2 (f E) (df E) z dz b)

/-- **C111, existence.** For every choice of values at `a`, polynomial of degree one in the energy, the families of C111 exist: the hypothesis on
`f` and `df` can always be met. -/
theorem C111_family_exists {eps M H : ℝ} (hM : 0 ≤ M) {W : Sec ℝ → ℝ → Mat n ℝ} {secs : List (Sec ℝ)} {dmin dmax : ℝ} (hf : MFitMesh eps M H W dmin dmax secs) {a : ℝ} (ha : a ∈ Set.Icc dmin dmax)
    (E : ℝ) (y dy e de : Matrix (Fin n) (Fin r) ℝ) :
    ∃ f df : ℝ → ℝ → Matrix (Fin n) (Fin r) ℝ, (∀ F, MSolvesMesh W F secs (f F) (df F)) ∧ f E a = y ∧ df E a = dy ∧ DerivAt (fun F => f F a) (fun F => df F a) e de E := by
  have hp : ∀ s ∈ secs, s.min < s.max := fun s hs => by linarith [hf.wide s hs, hf.eps_nonneg]
  have ex : ∀ F : ℝ, ∃ p : (ℝ → Matrix (Fin n) (Fin r) ℝ) × (ℝ → Matrix (Fin n) (Fin r) ℝ), MSolvesMesh W F secs p.1 p.2 ∧ p.1 a = y + (F - E) • e ∧ p.2 a = dy + (F - E) • de := by
    intro F
    have hV1 : ∀ s ∈ secs, MSmoothOn (M + |F|) (W s) s.min s.max := by
      intro s hs i j
      obtain ⟨D, e0, e1, e2⟩ := hf.smooth s hs i j
      exact ⟨D, e0, e1, fun k hk t ht => (e2 k hk t ht).trans (by linarith [abs_nonneg F])⟩
    obtain ⟨z, dz, h1, h2, h3⟩ := src_exists_at (E := F) (g := fun _ => (0 : Matrix (Fin n) (Fin r) ℝ)) (by linarith [abs_nonneg F] : 0 ≤ M + |F|) (by linarith) (chn_of_tiling _ hf.mesh.tiling) hp hV1
      (fun s hs i j => continuousOn_const) ha (y + (F - E) • e) (dy + (F - E) • de)
    exact ⟨(z, dz), fun s hs => zero_src (h1 s hs), h2, h3⟩
  choose p hp1 hp2 hp3 using ex
  have lin : ∀ c k : ℝ, HasDerivAt (fun F => c + (F - E) * k) k E := fun c k => by
    have := (((hasDerivAt_id E).sub_const E).mul_const k).const_add c
    rwa [one_mul] at this
  refine ⟨fun F => (p F).1, fun F => (p F).2, hp1, by simp [hp2], by simp [hp3], fun i j => ⟨?_, ?_⟩⟩
  · simp only [hp2]; exact lin _ _
  · simp only [hp3]; exact lin _ _

end

/-- The hypotheses of C111 are met, however large the constant, on the mesh with a jump of C105, backwards from its right to its left end, by a
family whose values at the start depend on the energy. -/
example : ∃ C : ℝ, 1 ≤ C ∧ ∀ H, 0 < H → H ≤ 1 / C → ∃ (f df : ℝ → ℝ → Matrix (Fin 2) (Fin 1) ℝ) (res : Yn 2 1 ℝ) (e' de' : Matrix (Fin 2) (Fin 1) ℝ),
    f 25 (2 * H) = !![3; 4] ∧ df 25 (2 * H) = !![1; 0] ∧ (∀ F, MSolvesMesh jW F (jSecs H) (f F) (df F)) ∧
    (problemM 0 exactLit (fun _ Z i => Eta.eta i Z) jV (fun _ => jQ) (jSecs H) 0 (2 * H)).propagateColumn 25 ⟨Matrix.fromRows !![3; 4] !![1; 0], Matrix.fromRows !![2; 5] !![0; 1]⟩ (2 * H) 0 true = .ok res ∧
      DerivAt (fun F => f F 0) (fun F => df F 0) e' de' 25 ∧ NearTo (C * (H ^ 9 + 0 + 0) * 5) res.yE e' de' := by
  obtain ⟨C, hC, key⟩ := C111_energy_derivative 2 1 25 (by norm_num)
  refine ⟨C, hC, fun H h0 hH => ?_⟩
  have hC0 : 0 < C := by linarith
  have h1 : H ≤ 1 := hH.trans (by rw [div_le_one hC0]; exact hC)
  have hCH : C * H ≤ 1 := by rw [le_div_iff₀ hC0] at hH; linarith
  obtain ⟨f, df, hs, y1, y2, hd⟩ := C111_family_exists (by norm_num) (j_fit h0 h1) (a := 2 * H) ⟨by linarith, le_rfl⟩ 25 (!![3; 4] : Matrix (Fin 2) (Fin 1) ℝ) !![1; 0] !![2; 5] !![0; 1]
  obtain ⟨res, e', de', k1, k2, -, k4⟩ := key 0 0 H exactLit (fun _ Z i => Eta.eta i Z) jW jV (fun _ => jQ) (jSecs H) 0 (2 * H) 25 5 (2 * H) 0 0 true f df !![2; 5] !![0; 1]
    ⟨Matrix.fromRows !![3; 4] !![1; 0], Matrix.fromRows !![2; 5] !![0; 1]⟩
    (j_fit h0 h1) (j_accurate H) (by linarith) (by linarith) (by norm_num) hs ⟨by linarith, le_rfl⟩ ⟨le_rfl, by linarith⟩ hd
    (by rw [y1, y2]; exact fun i j => ⟨rfl, rfl⟩) (fun i j => ⟨rfl, rfl⟩) (by norm_num)
    (by rw [y1, y2]; intro i j; fin_cases i <;> fin_cases j <;> norm_num) (by intro i j; fin_cases i <;> fin_cases j <;> norm_num) le_rfl (by
      intro s hs
      rcases j_mem hs with rfl | rfl <;> exact ⟨fun a b => ⟨fun c => absurd a (by linarith), fun c => absurd b (by linarith)⟩, fun a b => ⟨fun c => absurd a (by linarith), fun c => absurd b (by linarith)⟩⟩)
  exact ⟨f, df, res, e', de', y1, y2, hs, k1, k2, by simpa using k4⟩

end Verif.Matscs
