import Verif.Lemmas.MatscsConverge

/-!
# Propagation of a coupled system over a mesh
-/
namespace Verif.NP
open Verif.MFormulas Verif.Matscs Verif.Mesh Verif Verif.YT

attribute [local instance] Matrix.linftyOpNormedAddCommGroup Matrix.linftyOpNormedSpace Matrix.linftyOpNormedRing Matrix.linftyOpNormedAlgebra

section
variable {n r : ℕ}

theorem chn_sum {p C c : ℝ} {g : Sec ℝ → ℝ} (hC : 0 ≤ C) : ∀ {l : List (Sec ℝ)} {a b : ℝ}, Chn a l b → (∀ s ∈ l, g s ≤ C * ((s.max - s.min) * p + c)) →
    (l.map g).sum ≤ C * ((b - a) * p + l.length * c)
  | [], a, b, h, _ => by simp only [Chn] at h; simp [h]
  | s :: l, a, b, h, hg => by
    have ih := chn_sum hC h.2 (fun t ht => hg t (List.mem_cons_of_mem _ ht))
    have h1 := hg s (by simp)
    have e := h.1
    rw [List.map_cons, List.sum_cons, List.length_cons, ← e]
    push_cast
    refine (add_le_add h1 ih).trans (le_of_eq (by ring))

/-- The constant of `mesh_near`. -/
noncomputable def meshC (n : ℕ) (M : ℝ) : ℝ := Real.exp (3 * (4 * secC n M * (M + 1))) * (4 * (8 * secC n M * M + secC n M + lC n M)) * Real.exp (2 * (lC n M * M))

theorem problemM_mesh (eps : ℝ) (q : MTerm → ℝ) (eta : ℕ → ℝ → ℕ → ℝ) (vs : Sec ℝ → ℕ → Mat n ℝ) (Q : Sec ℝ → Mat n ℝ) (secs : List (Sec ℝ)) (dmin dmax : ℝ) :
    (problemM eps q eta vs Q secs dmin dmax).mesh = secs := by
  simp only [CProb.mesh, problemM, List.map_map]
  exact List.map_id'' (fun _ => rfl) secs

theorem ingr {M H ε ρ σ τ eps dmin dmax E : ℝ} {q : MTerm → ℝ} {eta : ℕ → ℝ → ℕ → ℝ} {W : Sec ℝ → ℝ → Mat n ℝ} {vs : Sec ℝ → ℕ → Mat n ℝ} {Q : Sec ℝ → Mat n ℝ} {secs : List (Sec ℝ)}
    (hM : 0 ≤ M) (hf : MFitMesh eps M H W dmin dmax secs) (hq : LitWithin ρ q) (he : EtaWithin σ eta) (hτ : 0 ≤ τ)
    (hv : ∀ s ∈ secs, MCoeffWithin τ (W s) s.min s.max (vs s) ∧ Diagonalizes (Q s) (vs s 0)) (hε : ρ + τ + secs.length * σ ≤ ε) (hε1 : ε ≤ 1) (hE : |E| ≤ M) :
    ∀ s ∈ secs, Ingr M ρ σ τ q eta (W s) (vs s) (Q s) s E ∧ σ ≤ ε := by
  intro s hs
  have hN : (1 : ℝ) ≤ secs.length := by
    have : 0 < secs.length := List.length_pos_of_mem hs
    exact_mod_cast this
  have hρ := hq.1
  have hσ := he.nonneg
  have hσε : σ ≤ ε := by nlinarith
  refine ⟨⟨hM, hτ, by nlinarith, by linarith, by nlinarith, hq, he, by linarith [hf.wide s hs, hf.eps_nonneg], (hf.narrow s hs).trans hf.small, hf.smooth s hs, (hv s hs).1, (hv s hs).2, hE⟩, hσε⟩

set_option maxHeartbeats 1600000 in
theorem mesh_near {M H ε ρ σ τ eps dmin dmax E : ℝ} {q : MTerm → ℝ} {eta : ℕ → ℝ → ℕ → ℝ} {W : Sec ℝ → ℝ → Mat n ℝ} {vs : Sec ℝ → ℕ → Mat n ℝ} {Q : Sec ℝ → Mat n ℝ} {secs : List (Sec ℝ)}
    (hM : 1 ≤ M) (hf : MFitMesh eps M H W dmin dmax secs) (hq : LitWithin ρ q) (he : EtaWithin σ eta) (hτ : 0 ≤ τ)
    (hv : ∀ s ∈ secs, MCoeffWithin τ (W s) s.min s.max (vs s) ∧ Diagonalizes (Q s) (vs s 0)) (hε : ρ + τ + secs.length * σ ≤ ε) (hε1 : ε ≤ 1) (hd : dmax - dmin ≤ M) (hE : |E| ≤ M)
    (hfine : 2 * secC n M * (H + ε) ≤ 1) (useH : Bool) :
    (problemM eps q eta vs Q secs dmin dmax).Good E useH ∧
    ∀ (r : ℕ) (y dy : ℝ → Matrix (Fin n) (Fin r) ℝ), MSolvesMesh W E secs y dy → ∀ a ∈ Set.Icc dmin dmax, ∀ b ∈ Set.Icc dmin dmax, ∀ d, 0 ≤ d →
      (∀ s ∈ secs, Skips eps d s.min s.max a ∧ Skips eps d s.min s.max b) → ∀ u : Yn n r ℝ, u.y = stk y dy a →
      ∃ res, (problemM eps q eta vs Q secs dmin dmax).propagateColumn E u a b useH = .ok res ∧
        ‖res.y - stk y dy b‖ ≤ meshC n M * (H ^ (if useH then 9 else 8) + ε + d) * ‖stk y dy a‖ := by
  have hM0 : 0 ≤ M := by linarith
  have hI := ingr hM0 hf hq he hτ hv hε hε1 hE
  have hC := secC_one (n := n) hM0
  have hL := lC_one (n := n) hM0
  have hρ := hq.1
  have hσ := he.nonneg
  have chn := chn_of_tiling _ hf.mesh.tiling
  have hp : ∀ s ∈ secs, s.min < s.max := fun s hs => by linarith [hf.wide s hs, hf.eps_nonneg]
  have hθ : ∀ s ∈ secs, secC n M * (s.max - s.min + σ) ≤ 1 / 2 := by
    intro s hs
    have h1 := hf.narrow s hs
    have h2 := (hI s hs).2
    have := mul_le_mul_of_nonneg_left (add_le_add h1 h2) (by linarith : 0 ≤ secC n M)
    linarith
  have good : (problemM eps q eta vs Q secs dmin dmax).Good E useH := by
    refine ⟨by rw [problemM_mesh]; exact hf.mesh, ?_, ?_, ?_, ?_⟩
    all_goals
      intro c hc
      simp only [problemM, List.mem_map] at hc
      obtain ⟨s, hs, rfl⟩ := hc
    · exact hp s hs
    · rfl
    · have := hf.directed s hs
      show s.dir = .forward ∨ s.dir = .backward
      cases hh : s.dir
      · exact absurd hh this
      · exact Or.inl rfl
      · exact Or.inr rfl
    · intro δ h0 h1
      exact (near_one ((tm_near (hI s hs).1 hf.eps_nonneg ⟨h0, h1⟩ useH)) (hθ s hs)).1
  refine ⟨good, ?_⟩
  intro r y dy hy a ha b hb d hd0 hsk u hu
  obtain ⟨S, hSd⟩ : ∃ S, S = Real.exp (2 * (lC n M * M)) * ‖stk y dy a‖ := ⟨_, rfl⟩
  have gr := growth hM0 hE chn hp hf.smooth hy
  have hS : ∀ x ∈ Set.Icc dmin dmax, ‖stk y dy x‖ ≤ S := by
    intro x hx
    have g1 := (gr x hx).1
    have g2 := (gr a ha).2
    have e1 : ∀ z ∈ Set.Icc dmin dmax, Real.exp (lC n M * (z - dmin)) ≤ Real.exp (lC n M * M) := fun z hz =>
      Real.exp_le_exp.mpr (mul_le_mul_of_nonneg_left (by linarith [hz.2]) (by linarith))
    have g3 := g1.trans (mul_le_mul (e1 x hx) (g2.trans (mul_le_mul_of_nonneg_right (e1 a ha) (norm_nonneg _))) (norm_nonneg _) (Real.exp_pos _).le)
    refine g3.trans (le_of_eq ?_)
    rw [hSd, ← mul_assoc, ← Real.exp_add]; congr 2; ring
  have hS0 : 0 ≤ S := (norm_nonneg _).trans (hS a ha)
  obtain ⟨G, hG⟩ : ∃ G : Sec ℝ → ℝ → Equiv.Perm (Yn n r ℝ), G = fun s => ((sectorM eps q eta (vs s) (Q s) s).toG r).N Yn.reverse E useH := ⟨_, rfl⟩
  have hH0 : 0 ≤ H := by
    obtain ⟨s, hs⟩ := List.exists_mem_of_ne_nil _ (show secs ≠ [] from fun h => hf.mesh.tiling.nonempty (by simp [bounds, h]))
    linarith [hf.narrow s hs, hp s hs]
  have inside : ∀ s ∈ secs, ∀ x ∈ Set.Icc s.min s.max, ‖stk y dy x‖ ≤ S := by
    intro s hs x hx
    have := (chn_range chn hp).2 s hs
    exact hS x ⟨this.1.trans hx.1, hx.2.trans this.2⟩
  have hρτ : ρ + τ ≤ ε := by nlinarith [mul_nonneg (Nat.cast_nonneg (α := ℝ) secs.length) hσ]
  have ε0 : 0 ≤ ε := by linarith
  obtain ⟨π, hπd⟩ : ∃ π, π = (secC n M * (H ^ 9 + ε + ε) + lC n M * d) * S := ⟨_, rfl⟩
  have hπ0 : 0 ≤ π := by rw [hπd]; exact mul_nonneg (add_nonneg (mul_nonneg (by linarith) (by positivity)) (mul_nonneg (by linarith) hd0)) hS0
  have steps : ∀ x ∈ Set.Icc dmin dmax, (∀ s ∈ secs, Skips eps d s.min s.max x) → ∀ s ∈ secs,
      StepOk (stk y dy) π s (G s) (4 * (secC n M * (s.max - s.min + σ))) (8 * (stE n M ρ σ τ useH (s.max - s.min) * S)) x := by
    intro x hx hk s hs
    rw [hG]
    have h0 : 0 ≤ s.max - s.min := by linarith [hp s hs]
    have h1 := hf.narrow s hs
    refine step_ok (hI s hs).1 hf.eps_nonneg (hf.wide s hs) (hf.directed s hs) hd0 useH (hy s hs) (inside s hs) (hθ s hs) x (hk s hs) hπ0 (fun _ _ => ?_)
    rw [hπd]
    refine mul_le_mul_of_nonneg_right (add_le_add ?_ le_rfl) hS0
    refine mul_le_mul_of_nonneg_left (add_le_add (add_le_add ?_ ?_) (hI s hs).2) (by linarith)
    · exact pow_le_pow_left₀ h0 h1 9
    · nlinarith [hf.small]
  have sk : (secs.map (fun s => 4 * (secC n M * (s.max - s.min + σ)))).sum ≤ 4 * secC n M * (M + 1) := by
    refine (chn_sum (p := 1) (c := σ) (C := 4 * secC n M) (by linarith) chn (fun s hs => le_of_eq (by ring))).trans ?_
    refine mul_le_mul_of_nonneg_left ?_ (by linarith)
    linarith
  have sf : (secs.map (fun s => 8 * (stE n M ρ σ τ useH (s.max - s.min) * S))).sum ≤ 8 * secC n M * M * S * (H ^ (if useH then 9 else 8) + ε) := by
    refine (chn_sum (p := H ^ (if useH then 9 else 8) + (ρ + τ)) (c := σ) (C := 8 * secC n M * S) (mul_nonneg (by linarith) hS0) chn (fun s hs => ?_)).trans ?_
    · have h0 : 0 ≤ s.max - s.min := by linarith [hp s hs]
      have h1 := hf.narrow s hs
      have : (s.max - s.min) ^ ordM useH ≤ (s.max - s.min) * H ^ (if useH then 9 else 8) := by
        cases useH
        · show (s.max - s.min) ^ 9 ≤ (s.max - s.min) * H ^ 8
          rw [pow_succ']; exact mul_le_mul_of_nonneg_left (pow_le_pow_left₀ h0 h1 8) h0
        · show (s.max - s.min) ^ 10 ≤ (s.max - s.min) * H ^ 9
          rw [pow_succ']; exact mul_le_mul_of_nonneg_left (pow_le_pow_left₀ h0 h1 9) h0
      unfold stE
      have k := mul_le_mul_of_nonneg_left this (mul_nonneg (by linarith : 0 ≤ 8 * secC n M) hS0)
      linarith
    · have P0 : 0 ≤ H ^ (if useH then 9 else 8) := pow_nonneg hH0 _
      have k1 : (dmax - dmin) * (H ^ (if useH then 9 else 8) + (ρ + τ)) ≤ M * (H ^ (if useH then 9 else 8) + (ρ + τ)) := mul_le_mul_of_nonneg_right hd (by linarith)
      have k2 : secs.length * σ ≤ M * (secs.length * σ) := le_mul_of_one_le_left (mul_nonneg (Nat.cast_nonneg _) hσ) hM
      have k3 : M * (ρ + τ + secs.length * σ) ≤ M * ε := mul_le_mul_of_nonneg_left hε hM0
      have k4 : (dmax - dmin) * (H ^ (if useH then 9 else 8) + (ρ + τ)) + secs.length * σ ≤ M * (H ^ (if useH then 9 else 8) + ε) := by linarith
      have k5 := mul_le_mul_of_nonneg_left k4 (mul_nonneg (by linarith : 0 ≤ 8 * secC n M) hS0)
      refine k5.trans (le_of_eq (by ring))
  have tr := chain_two (X := Sec ℝ) (sec := id) (G := G) (l := secs) hπ0 (by rw [List.map_id]; exact chn) hp (steps a ha (fun s hs => (hsk s hs).1)) (steps b hb (fun s hs => (hsk s hs).2)) sk sf ha hb
  have phi : ∀ x, ((problemM eps q eta vs Q secs dmin dmax).toG r).Phi Yn.reverse E useH x = Pi (byIdx G secs) x secs.length := by
    intro x
    have e1 : ((problemM eps q eta vs Q secs dmin dmax).toG r).Nat' Yn.reverse E useH = byIdx G secs := by
      funext k z
      simp only [GProb.Nat', byIdx, CProb.toG, problemM, List.map_map, List.getElem?_map, hG]
      cases secs[k]? <;> rfl
    unfold GProb.Phi
    rw [e1]
    congr 1
    simp [CProb.toG, problemM]
  refine ⟨_, propagateColumn_eq_Phi Yn.reverse_reverse good.toG u ha hb, ?_⟩
  rw [phi, phi]
  refine (tr u hu).trans ?_
  have P8 : H ^ 9 ≤ H ^ (if useH then 9 else 8) := by
    cases useH
    · exact pow_le_pow_of_le_one hH0 hf.small (by norm_num)
    · exact le_rfl
  have P0 : 0 ≤ H ^ (if useH then 9 else 8) := pow_nonneg hH0 _
  generalize H ^ (if useH then 9 else 8) = P at *
  have fin : 8 * secC n M * M * S * (P + ε) + π ≤ 2 * (8 * secC n M * M + secC n M + lC n M) * (P + ε + d) * S := by
    rw [hπd, mul_right_comm (8 * secC n M * M), ← add_mul]
    refine mul_le_mul_of_nonneg_right ?_ hS0
    have c1 : 0 ≤ secC n M * M := mul_nonneg (by linarith) hM0
    have c2 := mul_le_mul_of_nonneg_left P8 (by linarith : 0 ≤ secC n M)
    have q1 : 0 ≤ secC n M * M * (P + ε + d) := mul_nonneg c1 (by linarith)
    have q2 : 0 ≤ secC n M * M * d := mul_nonneg c1 hd0
    have q3 : 0 ≤ secC n M * P := mul_nonneg (by linarith) P0
    have q4 : 0 ≤ secC n M * d := mul_nonneg (by linarith) hd0
    have q5 : 0 ≤ lC n M * (P + ε) := mul_nonneg (by linarith) (by linarith)
    have q6 : 0 ≤ lC n M * d := mul_nonneg (by linarith) hd0
    have q7 : 0 ≤ lC n M * (P + ε + d) := mul_nonneg (by linarith) (by linarith)
    linarith
  have X := (Real.exp_pos (3 * (4 * secC n M * (M + 1)))).le
  have fin2 := mul_le_mul_of_nonneg_left (mul_le_mul_of_nonneg_left fin (zero_le_two (α := ℝ))) X
  refine fin2.trans (le_of_eq ?_)
  unfold meshC
  rw [hSd]; ring

end
end Verif.NP
