import Verif.Lemmas.MatscsMain

/-!
# The energy derivative of the transfer matrix of a coupled system as one flat sum
-/
namespace Verif.NP
open Verif.MFormulas Verif.CalcT Verif.YT
open scoped BigOperators

section
variable {K A : Type} [Field K] [Ring A] [Algebra K A]

/-- the factors of the energy derivative: `-δ²/2 · e_{i+1}` as far as `e_{i+1}` is computed -/
def dEta (N : ℕ) (e : ℕ → A) (δ : K) (i : ℕ) : A := if i + 1 < N then (-δ * δ / 2) • e (i + 1) else 0

variable (q : MTerm → K) (v e : ℕ → A) (h δ : K) (b : Blk (K := K) (A := A))

theorem of_etaLoop_dt (N : ℕ) (coeff : ℕ → M2 A) (k i : ℕ) (t : T A) :
    b.of (etaLoopM N coeff e δ k i t).dt = b.of t.dt + ∑ j ∈ Finset.range k, b.of (coeff (i + j)) * dEta N e δ (i + j) := by
  induction k generalizing i t with
  | zero => simp [etaLoopM]
  | succ k ih =>
    rw [etaLoopM, ih, Finset.sum_range_succ', add_zero]
    have h1 : b.of (if i + 1 < N then m2Add t.dt (m2Smul (coeff i) ((-δ * δ / 2) • e (i + 1))) else t.dt) = b.of t.dt + b.of (coeff i) * dEta N e δ i := by
      unfold dEta
      split
      · rw [b.add, b.smul]
      · rw [mul_zero, add_zero]
    show b.of (if i + 1 < N then m2Add t.dt (m2Smul (coeff i) ((-δ * δ / 2) • e (i + 1))) else t.dt) + _ = _
    rw [h1, add_assoc, add_comm (b.of (coeff i) * dEta N e δ i)]
    congr 2
    refine Finset.sum_congr rfl (fun j _ => ?_)
    rw [show i + 1 + j = i + (j + 1) by omega]

theorem of_bodyD_dt (VEd : A) :
    b.of (bodyM MFormulas.etaDelta (fun i => hornerM (coeffD q v h i) δ MFormulas.hmaxDelta) e VEd δ).dt =
      b.of ⟨0, 0, -δ • e 1 - (δ * δ / 2) • (e 2 * VEd), 0⟩ + evc q v (dEta 5 e δ) h δ (rowsF b.sel 0 tDelta) := by
  unfold bodyM
  rw [of_etaLoop_dt, evc_rows q v _ h δ b.sel 0 tDelta 10 (fun r hr => row_len hr), tDelta_shape.1]
  congr 1
  refine Finset.sum_congr rfl (fun i _ => ?_)
  simp only [zero_add]
  congr 1
  show b.of (hornerM (coeffD q v h i) δ (9 + 1)) = _
  rw [of_horner]
  exact Finset.sum_congr rfl (fun j _ => by rw [of_coeffD])

theorem of_bodyH_dt (VEd : A) :
    b.of (bodyM MFormulas.etaH (coeffH q v h) e VEd δ).dt = b.of ⟨0, 0, -δ • e 1 - (δ * δ / 2) • (e 2 * VEd), 0⟩ + evc q v (dEta 6 e δ) h δ (hF b.sel 0 tH) := by
  unfold bodyM
  rw [of_etaLoop_dt, evc_h, tDelta_shape.2.2]
  congr 1
  refine Finset.sum_congr rfl (fun i _ => ?_)
  simp only [zero_add]
  rw [of_coeffH]
  rfl

end

section
variable {n : ℕ}

theorem conj_smul {Q : Mat n ℝ} (x : ℝ) (m : Mat n ℝ) : Q * (x • m) * Q.transpose = x • (Q * m * Q.transpose) := by
  rw [Matrix.mul_smul, Matrix.smul_mul]

theorem dt_blocks {Q : Mat n ℝ} (hQ : Q.transpose * Q = 1) (q : MTerm → ℝ) (eta : ℕ → ℝ → ℕ → ℝ) (c : ℕ → Mat n ℝ) (s : Mesh.Sec ℝ) {δ : ℝ} {VEd : Fin n → ℝ} {Z : Fin n → ℝ}
    (hZ : ∀ j, VEd j = Z j * δ) (useH : Bool) :
    let t := (calcFromVEd q eta (mkMSec c Q s) δ VEd useH).dt
    let e := codeE eta Q Z (etaN useH) δ
    t.a = evc q (origV c s) (dEta (etaN useH) e δ) (s.max - s.min) δ (lst useH MEntry4.a) ∧
    t.b = evc q (origV c s) (dEta (etaN useH) e δ) (s.max - s.min) δ (lst useH MEntry4.b) ∧
    t.c = (-δ • e 1 - (δ * δ / 2) • (δ • ((Q * Matrix.diagonal Z * Q.transpose) * e 2))) + evc q (origV c s) (dEta (etaN useH) e δ) (s.max - s.min) δ (lst useH MEntry4.c) ∧
    t.d = evc q (origV c s) (dEta (etaN useH) e δ) (s.max - s.min) δ (lst useH MEntry4.d) := by
  have hv : (fun k => Q * (mkMSec c Q s).vs k * Q.transpose) = origV c s := funext (conj_back hQ c s)
  have he : ∀ N, (fun i => Q * (Matrix.diagonal (fun j => eta N (VEd j * δ) i) : Mat n ℝ) * Q.transpose) = codeE eta Q Z N δ := by
    intro N; funext i; unfold codeE
    congr 3; funext j; rw [hZ]; congr 1; ring
  have hde : ∀ N, (fun i => Q * (dEta N (fun i => (Matrix.diagonal (fun j => eta N (VEd j * δ) i) : Mat n ℝ)) δ i) * Q.transpose) = dEta N (codeE eta Q Z N δ) δ := by
    intro N; funext i
    unfold dEta
    split
    · rw [conj_smul, ← congrFun (he N) (i + 1)]
    · rw [Matrix.mul_zero, Matrix.zero_mul]
  have hc : ∀ N, Q * ((Matrix.diagonal (fun j => eta N (VEd j * δ) 2) : Mat n ℝ) * Matrix.diagonal VEd) * Q.transpose = δ • ((Q * Matrix.diagonal Z * Q.transpose) * codeE eta Q Z N δ 2) := by
    intro N
    rw [← congrFun (he N) 2, ← conj_mul hQ, Matrix.diagonal_mul_diagonal, Matrix.diagonal_mul_diagonal, ← Matrix.smul_mul, ← Matrix.mul_smul]
    congr 2
    ext k l
    by_cases hkl : k = l
    · subst hkl; simp [hZ]; ring
    · simp [Matrix.diagonal_apply_ne _ hkl]
  have hc' : ∀ N, Q * (-δ • (Matrix.diagonal (fun j => eta N (VEd j * δ) 1) : Mat n ℝ) - (δ * δ / 2) • ((Matrix.diagonal (fun j => eta N (VEd j * δ) 2) : Mat n ℝ) * Matrix.diagonal VEd)) * Q.transpose =
      -δ • codeE eta Q Z N δ 1 - (δ * δ / 2) • (δ • ((Q * Matrix.diagonal Z * Q.transpose) * codeE eta Q Z N δ 2)) := by
    intro N
    rw [Matrix.mul_sub, Matrix.sub_mul, conj_smul, conj_smul, hc, ← congrFun (he N) 1]
  have key : ∀ l : List FT, ∀ N, Q * evc q (mkMSec c Q s).vs (dEta N (fun i => (Matrix.diagonal (fun j => eta N (VEd j * δ) i) : Mat n ℝ)) δ) (s.max - s.min) δ l * Q.transpose =
      evc q (origV c s) (dEta N (codeE eta Q Z N δ) δ) (s.max - s.min) δ l := by
    intro l N
    rw [conj_evc hQ, hv, hde]
  have main : ∀ (N : ℕ) (bd : T (Mat n ℝ)) (ls : (MEntry4 → MEntry) → List FT), (∀ b : Blk (K := ℝ) (A := Mat n ℝ), b.of bd.dt =
        b.of ⟨0, 0, -δ • (Matrix.diagonal (fun j => eta N (VEd j * δ) 1) : Mat n ℝ) - (δ * δ / 2) • ((Matrix.diagonal (fun j => eta N (VEd j * δ) 2) : Mat n ℝ) * Matrix.diagonal VEd), 0⟩ +
          evc q (mkMSec c Q s).vs (dEta N (fun i => (Matrix.diagonal (fun j => eta N (VEd j * δ) i) : Mat n ℝ)) δ) (s.max - s.min) δ (ls b.sel)) →
      (conjM Q bd.dt).a = evc q (origV c s) (dEta N (codeE eta Q Z N δ) δ) (s.max - s.min) δ (ls MEntry4.a) ∧
      (conjM Q bd.dt).b = evc q (origV c s) (dEta N (codeE eta Q Z N δ) δ) (s.max - s.min) δ (ls MEntry4.b) ∧
      (conjM Q bd.dt).c = (-δ • codeE eta Q Z N δ 1 - (δ * δ / 2) • (δ • ((Q * Matrix.diagonal Z * Q.transpose) * codeE eta Q Z N δ 2))) +
        evc q (origV c s) (dEta N (codeE eta Q Z N δ) δ) (s.max - s.min) δ (ls MEntry4.c) ∧
      (conjM Q bd.dt).d = evc q (origV c s) (dEta N (codeE eta Q Z N δ) δ) (s.max - s.min) δ (ls MEntry4.d) := by
    intro N bd ls hb
    refine ⟨?_, ?_, ?_, ?_⟩
    · exact (congrArg (fun x => Q * x * Q.transpose) ((hb blkA).trans (zero_add _))).trans (key _ N)
    · exact (congrArg (fun x => Q * x * Q.transpose) ((hb blkB).trans (zero_add _))).trans (key _ N)
    · refine (congrArg (fun x => Q * x * Q.transpose) (hb blkC)).trans ?_
      rw [Matrix.mul_add, Matrix.add_mul]
      exact congrArg₂ (· + ·) (hc' N) (key _ N)
    · exact (congrArg (fun x => Q * x * Q.transpose) ((hb blkD).trans (zero_add _))).trans (key _ N)
  cases useH with
  | true =>
    have ht : (calcFromVEd q eta (mkMSec c Q s) δ VEd true).dt = conjM Q (bodyM MFormulas.etaH (coeffH q (mkMSec c Q s).vs (s.max - s.min))
        (fun i => (Matrix.diagonal (fun j => eta MFormulas.etaH (VEd j * δ) i) : Mat n ℝ)) (Matrix.diagonal VEd) δ).dt := by
      simp only [calcFromVEd, if_true]
      rfl
    have := main 6 _ (fun sel => hF sel 0 tH) (fun b => of_bodyH_dt q (mkMSec c Q s).vs (fun i => (Matrix.diagonal (fun j => eta MFormulas.etaH (VEd j * δ) i) : Mat n ℝ)) (s.max - s.min) δ b (Matrix.diagonal VEd))
    rw [← ht] at this
    exact this
  | false =>
    have ht : (calcFromVEd q eta (mkMSec c Q s) δ VEd false).dt = conjM Q (bodyM MFormulas.etaDelta (fun i => hornerM (coeffD q (mkMSec c Q s).vs (s.max - s.min) i) δ MFormulas.hmaxDelta)
        (fun i => (Matrix.diagonal (fun j => eta MFormulas.etaDelta (VEd j * δ) i) : Mat n ℝ)) (Matrix.diagonal VEd) δ).dt := by
      simp only [calcFromVEd, if_false, Bool.false_eq_true]
      rfl
    have := main 5 _ (fun sel => rowsF sel 0 tDelta) (fun b => of_bodyD_dt q (mkMSec c Q s).vs (fun i => (Matrix.diagonal (fun j => eta MFormulas.etaDelta (VEd j * δ) i) : Mat n ℝ)) (s.max - s.min) δ b (Matrix.diagonal VEd))
    rw [← ht] at this
    exact this

end
end Verif.NP
