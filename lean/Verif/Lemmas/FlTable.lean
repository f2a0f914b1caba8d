import Verif.Lemmas.FlRel

/-!
# Rounding errors of the formula tables and of `calculateT`
-/
namespace Verif.Fp
open Verif.YT Verif.CalcT Verif.Formulas

variable {u mu w : ℝ} {fl : ℝ → ℝ}

/-! ### Table entries: every term of the coefficient of `h^p δ^j` has indices with sum at most `p + j` -/

/-- terms of level `J` -/
def okCoeff (J : Nat) (c : List Term) : Bool := c.all fun t => Nat.ble t.vs.sum J && Nat.ble 1 t.den
/-- entry of level `J` -/
def okEntry : Nat → Entry → Bool
  | _, [] => true
  | J, c :: l => okCoeff J c && okEntry (J + 1) l
/-- matrix of level `J` -/
def okE4 (J : Nat) (e : Entry4) : Bool := okEntry J e.a && okEntry J e.b && okEntry J e.c && okEntry J e.d
/-- row: level increasing with the position -/
def okRow : Nat → List Entry4 → Bool
  | _, [] => true
  | J, e :: l => okE4 J e && okRow (J + 1) l

set_option maxRecDepth 100000 in
theorem tDelta_ok : tDelta.all (okRow 0) = true := by decide +kernel
set_option maxRecDepth 100000 in
theorem tH_ok : tH.all (okE4 0) = true := by decide +kernel

/-! ### Constants -/
section consts
/-- constant of a product -/
noncomputable def bProd (B : ℝ) : List Nat → ℝ
  | [] => 1
  | _ :: l => 12 * (B * bProd B l)
/-- constant of a term -/
noncomputable def bTerm (B : ℝ) (t : Term) : ℝ := 12 * (24 * (|((t.num : ℚ) : ℝ)| + 1) * bProd B t.vs)
/-- constant of a coefficient -/
noncomputable def bCoeff (B : ℝ) : List Term → ℝ
  | [] => 1
  | t :: l => 4 * (bTerm B t + bCoeff B l)
/-- constant of an entry -/
noncomputable def bEntry (B : ℝ) : Entry → ℝ
  | [] => 1
  | c :: l => 4 * (bCoeff B c + 12 * (1 * bEntry B l))
/-- constant of a matrix -/
noncomputable def bE4 (B : ℝ) (e : Entry4) : ℝ := bEntry B e.a + bEntry B e.b + bEntry B e.c + bEntry B e.d

variable {B : ℝ} (hB : 1 ≤ B)
include hB
theorem bProd_one (l : List Nat) : 1 ≤ bProd B l := by
  induction l with
  | nil => exact le_rfl
  | cons i l ih =>
    have := one_le_mul_of_one_le_of_one_le hB ih
    simp only [bProd]; linarith
theorem bTerm_one (t : Term) : 1 ≤ bTerm B t := by
  have h1 := bProd_one hB t.vs
  have h2 : (1 : ℝ) ≤ 24 * (|((t.num : ℚ) : ℝ)| + 1) := by linarith [abs_nonneg ((t.num : ℚ) : ℝ)]
  have := one_le_mul_of_one_le_of_one_le h2 h1
  unfold bTerm; linarith
theorem bCoeff_one (l : List Term) : 1 ≤ bCoeff B l := by
  induction l with
  | nil => exact le_rfl
  | cons t l ih => simp only [bCoeff]; linarith [bTerm_one hB t]
theorem bEntry_one (l : Entry) : 1 ≤ bEntry B l := by
  induction l with
  | nil => exact le_rfl
  | cons c l ih => simp only [bEntry]; linarith [bCoeff_one hB c]
theorem bE4_le (e : Entry4) : bEntry B e.a ≤ bE4 B e ∧ bEntry B e.b ≤ bE4 B e ∧ bEntry B e.c ≤ bE4 B e ∧ bEntry B e.d ≤ bE4 B e ∧ 1 ≤ bE4 B e := by
  have := bEntry_one hB e.a; have := bEntry_one hB e.b; have := bEntry_one hB e.c; have := bEntry_one hB e.d
  unfold bE4
  refine ⟨?_, ?_, ?_, ?_, ?_⟩ <;> linarith
end consts

/-- accuracy of a matrix -/
structure RelM (w s B : ℝ) (m : M2 (Fl fl)) (m' : M2 ℝ) : Prop where
  a : Rel w s B m.a m'.a
  b : Rel w s B m.b m'.b
  c : Rel w s B m.c m'.c
  d : Rel w s B m.d m'.d

/-- What is known of a sector: `g = 1/h`. -/
structure SecHyp (u mu w : ℝ) (fl : ℝ → ℝ) (B h : ℝ) (hh : Fl fl) (v : Nat → Fl fl) : Prop where
  ar : Arith u mu w fl
  B1 : 1 ≤ B
  h0 : 0 < h
  h1 : h ≤ 1
  mh : mu ≤ h
  hrel : Rel w h 1 hh h
  vb : ∀ k, |(v k).val| ≤ B * h⁻¹ ^ k

theorem SecHyp.pow {B h : ℝ} {hh : Fl fl} {v : Nat → Fl fl} (S : SecHyp u mu w fl B h hh v) (n : ℕ) : 1 ≤ h⁻¹ ^ n :=
  one_le_pow₀ ((one_le_inv₀ S.h0).mpr S.h1)

theorem SecHyp.mpow {B h : ℝ} {hh : Fl fl} {v : Nat → Fl fl} (S : SecHyp u mu w fl B h hh v) (n : ℕ) : mu ≤ h⁻¹ ^ n := S.ar.mu1.trans (S.pow n)

theorem SecHyp.down {B h : ℝ} {hh : Fl fl} {v : Nat → Fl fl} (S : SecHyp u mu w fl B h hh v) (n : ℕ) : h * h⁻¹ ^ (n + 1) = h⁻¹ ^ n := by
  rw [pow_succ, mul_comm, mul_assoc, inv_mul_cancel₀ S.h0.ne', mul_one]

section tables
variable {B h : ℝ} {hh : Fl fl} {v : Nat → Fl fl} (S : SecHyp u mu w fl B h hh v)
include S

theorem prodV_rel (l : List Nat) : Rel w (h⁻¹ ^ l.sum) (bProd B l) (prodV v l) (prodV (fun k => (v k).val) l) := by
  induction l with
  | nil => simpa [prodV, bProd] using Rel.one S.ar
  | cons i l ih =>
    simp only [prodV, bProd, List.sum_cons, pow_add]
    have h1 := S.pow i
    have h2 := S.pow l.sum
    exact Rel.mul S.ar (by linarith) (by linarith) (S.ar.mu1.trans (one_le_mul_of_one_le_of_one_le h1 h2)) S.B1 (bProd_one S.B1 l)
      (Rel.exact S.ar (by linarith) (by linarith [S.B1]) (S.vb i)) ih

theorem term_rel (t : Term) (hd : 1 ≤ t.den) : Rel w (h⁻¹ ^ t.vs.sum) (bTerm B t) (t.val v) (t.val (fun k => (v k).val)) := by
  have h2 := S.pow t.vs.sum
  have hl := Rel.lit S.ar (fl := fl) (t.num : ℚ)
  have hdiv := Rel.divLit S.ar S.ar.mu1 (by linarith [abs_nonneg ((t.num : ℚ) : ℝ)]) hl (q := (t.den : ℚ)) (by exact_mod_cast hd)
  have := Rel.mul S.ar zero_le_one (by linarith) (by rw [one_mul]; exact S.mpow _) (by linarith [abs_nonneg ((t.num : ℚ) : ℝ)]) (bProd_one S.B1 t.vs) hdiv (prodV_rel S t.vs)
  rw [one_mul] at this
  exact this

theorem coeff_rel {J : ℕ} (l : List Term) (hl : okCoeff J l = true) : Rel w (h⁻¹ ^ J) (bCoeff B l) (coeffVal v l) (coeffVal (fun k => (v k).val) l) := by
  have hJ := S.pow J
  induction l with
  | nil => exact Rel.zero S.ar (by linarith) zero_le_one
  | cons t l ih =>
    unfold okCoeff at hl ih
    rw [List.all_cons, Bool.and_eq_true, Bool.and_eq_true, Nat.ble_eq, Nat.ble_eq] at hl
    have h1 := Rel.scale S.ar (by linarith [bTerm_one S.B1 t]) (term_rel S t hl.1.2) (s' := h⁻¹ ^ J)
      (pow_le_pow_right₀ ((one_le_inv₀ S.h0).mpr S.h1) hl.1.1)
    exact Rel.add S.ar (S.mpow J) (bTerm_one S.B1 t) (bCoeff_one S.B1 l) h1 (ih hl.2)

theorem entry_rel (l : Entry) : ∀ {J : ℕ}, okEntry J l = true → Rel w (h⁻¹ ^ J) (bEntry B l) (entryVal v hh l) (entryVal (fun k => (v k).val) h l) := by
  induction l with
  | nil => intro J _; exact Rel.zero S.ar (by linarith [S.pow J]) zero_le_one
  | cons c l ih =>
    intro J hl
    simp only [okEntry, Bool.and_eq_true] at hl
    have h1 := S.pow (J + 1)
    have := Rel.mul S.ar S.h0.le (by linarith) (by rw [S.down]; exact S.mpow J) le_rfl (bEntry_one S.B1 l) S.hrel (ih hl.2)
    rw [S.down] at this
    exact Rel.add S.ar (S.mpow J) (bCoeff_one S.B1 c) (by linarith [bEntry_one S.B1 l]) (coeff_rel S c hl.1) this

theorem e4_rel {J : ℕ} (e : Entry4) (he : okE4 J e = true) : RelM w (h⁻¹ ^ J) (bE4 B e) (e.val v hh) (e.val (fun k => (v k).val) h) := by
  unfold okE4 at he
  simp only [Bool.and_eq_true] at he
  obtain ⟨i1, i2, i3, i4, -⟩ := bE4_le S.B1 e
  have hJ : 0 ≤ h⁻¹ ^ J := by linarith [S.pow J]
  exact ⟨(entry_rel S e.a he.1.1.1).mono S.ar hJ i1, (entry_rel S e.b he.1.1.2).mono S.ar hJ i2, (entry_rel S e.c he.1.2).mono S.ar hJ i3, (entry_rel S e.d he.2).mono S.ar hJ i4⟩
end tables

theorem RelM.mono {s B B' : ℝ} (hA : Arith u mu w fl) (hs : 0 ≤ s) {m : M2 (Fl fl)} {m' : M2 ℝ} (h : RelM w s B m m') (hB : B ≤ B') : RelM w s B' m m' :=
  ⟨h.a.mono hA hs hB, h.b.mono hA hs hB, h.c.mono hA hs hB, h.d.mono hA hs hB⟩

theorem RelM.zero {s B : ℝ} (hA : Arith u mu w fl) (hs : 0 ≤ s) (hB : 0 ≤ B) : RelM w s B (m2Zero : M2 (Fl fl)) m2Zero :=
  ⟨Rel.zero hA hs hB, Rel.zero hA hs hB, Rel.zero hA hs hB, Rel.zero hA hs hB⟩

theorem RelM.add {s A B : ℝ} (hA : Arith u mu w fl) (hs : mu ≤ s) (a1 : 1 ≤ A) (b1 : 1 ≤ B) {m n : M2 (Fl fl)} {m' n' : M2 ℝ} (hm : RelM w s A m m') (hn : RelM w s B n n') :
    RelM w s (4 * (A + B)) (m2Add m n) (m2Add m' n') :=
  ⟨Rel.add hA hs a1 b1 hm.a hn.a, Rel.add hA hs a1 b1 hm.b hn.b, Rel.add hA hs a1 b1 hm.c hn.c, Rel.add hA hs a1 b1 hm.d hn.d⟩

theorem RelM.smul {s t A B : ℝ} (hA : Arith u mu w fl) (hs : 0 ≤ s) (ht : 0 ≤ t) (hst : mu ≤ s * t) (a1 : 1 ≤ A) (b1 : 1 ≤ B) {m : M2 (Fl fl)} {m' : M2 ℝ} {x : Fl fl} {x' : ℝ}
    (hm : RelM w s A m m') (hx : Rel w t B x x') : RelM w (s * t) (12 * (A * B)) (m2Smul m x) (m2Smul m' x') :=
  ⟨Rel.mul hA hs ht hst a1 b1 hm.a hx, Rel.mul hA hs ht hst a1 b1 hm.b hx, Rel.mul hA hs ht hst a1 b1 hm.c hx, Rel.mul hA hs ht hst a1 b1 hm.d hx⟩

/-! ### The tables of a sector -/

/-- constant of `t_coeff` -/
noncomputable def bDelta (B : ℝ) (i j : ℕ) : ℝ := match (tDelta.getD i []).drop j with
  | [] => 1
  | e :: _ => bE4 B e
/-- constant of `t_coeff_h` -/
noncomputable def bH (B : ℝ) (i : ℕ) : ℝ := match tH.drop i with
  | [] => 1
  | e :: _ => bE4 B e

theorem bDelta_one {B : ℝ} (hB : 1 ≤ B) (i j : ℕ) : 1 ≤ bDelta B i j := by
  unfold bDelta
  cases (tDelta.getD i []).drop j with
  | nil => exact le_rfl
  | cons e l => exact (bE4_le hB e).2.2.2.2
theorem bH_one {B : ℝ} (hB : 1 ≤ B) (i : ℕ) : 1 ≤ bH B i := by
  unfold bH
  cases tH.drop i with
  | nil => exact le_rfl
  | cons e l => exact (bE4_le hB e).2.2.2.2

theorem okRow_drop : ∀ (l : List Entry4) (J j : ℕ) (e : Entry4) (t : List Entry4), okRow J l = true → l.drop j = e :: t → okE4 (J + j) e = true
  | [], _, j, _, _, _, h => by simp at h
  | x :: l, J, 0, e, t, h, hd => by
    simp only [okRow, Bool.and_eq_true] at h
    simp only [List.drop_zero, List.cons.injEq] at hd
    rw [← hd.1]; exact h.1
  | x :: l, J, j + 1, e, t, h, hd => by
    simp only [okRow, Bool.and_eq_true] at h
    rw [List.drop_succ_cons] at hd
    have := okRow_drop l (J + 1) j e t h.2 hd
    rwa [show J + 1 + j = J + (j + 1) by ring] at this

section sector
variable {B h : ℝ} {hh : Fl fl} {v : Nat → Fl fl} (S : SecHyp u mu w fl B h hh v)
include S

theorem mkSec_coeff_rel (i j : ℕ) : RelM w (h⁻¹ ^ j) (bDelta B i j) ((mkSec hh v).coeff i j) ((mkSec h (fun k => (v k).val)).coeff i j) := by
  unfold mkSec bDelta
  dsimp only
  have hr : okRow 0 (tDelta.getD i []) = true := by
    rw [List.getD_eq_getElem?_getD]
    rcases hi : tDelta[i]? with _ | r
    · rfl
    · exact (List.all_eq_true.mp tDelta_ok) r (List.mem_of_getElem? hi)
  generalize tDelta.getD i [] = row at hr
  rcases hd : row.drop j with _ | ⟨e, t⟩
  · exact RelM.zero S.ar (by linarith [S.pow j]) zero_le_one
  · have := okRow_drop row 0 j e t hr hd
    rw [zero_add] at this
    exact e4_rel S e this

theorem mkSec_coeffH_rel (i : ℕ) : RelM w 1 (bH B i) ((mkSec hh v).coeffH i) ((mkSec h (fun k => (v k).val)).coeffH i) := by
  unfold mkSec bH
  dsimp only
  have hr := tH_ok
  generalize tH = row at hr
  rcases hd : row.drop i with _ | ⟨e, t⟩
  · exact RelM.zero S.ar zero_le_one zero_le_one
  · have hm : e ∈ row := List.mem_of_mem_drop (hd ▸ List.mem_cons_self)
    have := e4_rel S e ((List.all_eq_true.mp hr) e hm)
    rwa [pow_zero] at this

end sector

/-! ### Horner and the sum over the η functions -/

/-- constant of Horner's rule -/
noncomputable def bHL (f : Nat → ℝ) : Nat → ℝ → ℝ
  | 0, r => r
  | k + 1, r => bHL f k (4 * (12 * (r * 1) + f k))

theorem bHL_one {f : Nat → ℝ} (hf : ∀ k, 1 ≤ f k) : ∀ (k : ℕ) {r : ℝ}, 1 ≤ r → 1 ≤ bHL f k r
  | 0, _, h => h
  | k + 1, r, h => by
    simp only [bHL]
    exact bHL_one hf k (by linarith [hf k])

theorem horner_rel {B h : ℝ} {hh : Fl fl} {v : Nat → Fl fl} (S : SecHyp u mu w fl B h hh v) {f : Nat → M2 (Fl fl)} {f' : Nat → M2 ℝ} {b : Nat → ℝ} (hb : ∀ k, 1 ≤ b k)
    (hf : ∀ k, RelM w (h⁻¹ ^ k) (b k) (f k) (f' k)) {x : Fl fl} {x' : ℝ} (hx : Rel w h 1 x x') :
    ∀ (k : ℕ) {r : M2 (Fl fl)} {r' : M2 ℝ} {br : ℝ}, 1 ≤ br → RelM w (h⁻¹ ^ k) br r r' → RelM w 1 (bHL b k br) (hornerLoop f x k r) (hornerLoop f' x' k r')
  | 0, _, _, _, _, hr => by simpa [hornerLoop, bHL] using hr
  | k + 1, r, r', br, h1, hr => by
    simp only [hornerLoop, bHL]
    have hp := S.pow (k + 1)
    have hd : h⁻¹ ^ (k + 1) * h = h⁻¹ ^ k := by rw [mul_comm]; exact S.down k
    have := RelM.smul S.ar (by linarith) S.h0.le (by rw [hd]; exact S.mpow k) h1 le_rfl hr hx
    rw [hd] at this
    exact horner_rel S hb hf hx k (by linarith [hb k]) (RelM.add S.ar (S.mpow k) (by linarith) (hb k) this (hf k))

/-- accuracy of a transfer matrix and its derivative -/
structure RelT (w s B : ℝ) (m : T (Fl fl)) (m' : T ℝ) : Prop where
  t : RelM w s B m.t m'.t
  dt : RelM w s B m.dt m'.dt

/-- constant of the loop over the η functions -/
noncomputable def bEL (bh : Nat → ℝ) (Be Bd : ℝ) : Nat → Nat → ℝ → ℝ
  | 0, _, b => b
  | k + 1, i, b => bEL bh Be Bd k (i + 1) (4 * (b + 12 * (bh i * (24 * (12 * (Bd * Be))))))

theorem bEL_one {bh : Nat → ℝ} {Be Bd : ℝ} (hb : ∀ k, 1 ≤ bh k) (he : 1 ≤ Be) (hd : 1 ≤ Bd) : ∀ (k i : ℕ) {b : ℝ}, 1 ≤ b → 1 ≤ bEL bh Be Bd k i b
  | 0, _, _, h => h
  | k + 1, i, b, h => by
    simp only [bEL]
    have h1 := one_le_mul_of_one_le_of_one_le hd he
    have h2 := one_le_mul_of_one_le_of_one_le (hb i) (show (1 : ℝ) ≤ 24 * (12 * (Bd * Be)) by linarith)
    exact bEL_one hb he hd k (i + 1) (by linarith)

theorem etaLoop_rel (hA : Arith u mu w fl) {N : ℕ} {hor : Nat → M2 (Fl fl)} {hor' : Nat → M2 ℝ} {bh : Nat → ℝ} (hb : ∀ k, 1 ≤ bh k) (hh : ∀ i, RelM w 1 (bh i) (hor i) (hor' i))
    {eta : Nat → Fl fl} {eta' : Nat → ℝ} {Be Bd : ℝ} (e1 : 1 ≤ Be) (d1 : 1 ≤ Bd) (he : ∀ i < N, Rel w 1 Be (eta i) (eta' i)) {dd : Fl fl} {dd' : ℝ} (hd : Rel w 1 Bd dd dd') :
    ∀ (k i : ℕ) {t : T (Fl fl)} {t' : T ℝ} {b : ℝ}, k + i = N → 1 ≤ b → RelT w 1 b t t' →
      RelT w 1 (bEL bh Be Bd k i b) (etaLoop N hor eta dd k i t) (etaLoop N hor' eta' dd' k i t')
  | 0, _, _, _, _, _, _, ht => ht
  | k + 1, i, t, t', b, hk, h1, ht => by
    simp only [etaLoop, bEL]
    have m1 : mu ≤ (1 : ℝ) * 1 := by linarith [hA.mu1]
    have de1 := one_le_mul_of_one_le_of_one_le d1 e1
    have q1 : (1 : ℝ) ≤ 24 * (12 * (Bd * Be)) := by linarith
    have bq := one_le_mul_of_one_le_of_one_le (hb i) q1
    have hei : Rel w 1 (24 * (12 * (Bd * Be))) (eta i) (eta' i) := (he i (by omega)).mono hA zero_le_one (by nlinarith)
    have s1 := RelM.smul hA zero_le_one zero_le_one m1 (hb i) q1 (hh i) hei
    rw [one_mul] at s1
    have a1 := RelM.add hA hA.mu1 h1 (by linarith) ht.t s1
    refine etaLoop_rel hA hb hh e1 d1 he hd k (i + 1) (by omega) (by linarith) ⟨a1, ?_⟩
    dsimp only
    split
    · rename_i hi
      have p1 := Rel.mul hA zero_le_one zero_le_one m1 d1 e1 hd.neg (he (i + 1) hi)
      rw [one_mul] at p1
      have p2 := Rel.divLit hA hA.mu1 (by linarith) p1 (q := 2) (by norm_num)
      have s2 := RelM.smul hA zero_le_one zero_le_one m1 (hb i) q1 (hh i) p2
      rw [one_mul] at s2
      exact RelM.add hA hA.mu1 h1 (by linarith) ht.dt s2
    · exact ht.dt.mono hA zero_le_one (by linarith)

/-- constant of the start of `body` -/
noncomputable def bStart (Be Bv : ℝ) : ℝ := 4 * (12 * (1 * Be) + 24 * (12 * (12 * (12 * (Bv * 12) * 1) * Be))) + 12 * (12 * (Bv * 1) * Be)

theorem body_rel (hA : Arith u mu w fl) {N : ℕ} (hN : 3 ≤ N) {hor : Nat → M2 (Fl fl)} {hor' : Nat → M2 ℝ} {bh : Nat → ℝ} (hb : ∀ k, 1 ≤ bh k) (hh : ∀ i, RelM w 1 (bh i) (hor i) (hor' i))
    {eta : Nat → Fl fl} {eta' : Nat → ℝ} {Be Bv : ℝ} (e1 : 1 ≤ Be) (v1 : 1 ≤ Bv) (he : ∀ i < N, Rel w 1 Be (eta i) (eta' i)) {vE d : Fl fl} {vE' d' : ℝ}
    (hv : Rel w 1 Bv vE vE') (hd : Rel w 1 1 d d') :
    RelT w 1 (bEL bh Be 12 N 0 (bStart Be Bv)) (body N hor eta vE d) (body N hor' eta' vE' d') := by
  have m1 : mu ≤ (1 : ℝ) * 1 := by linarith [hA.mu1]
  have hdd := Rel.mul hA zero_le_one zero_le_one m1 le_rfl le_rfl hd hd
  rw [one_mul, mul_one] at hdd
  have ev : 1 ≤ Bv * Be := one_le_mul_of_one_le_of_one_le v1 e1
  have c1 := Rel.mul hA zero_le_one zero_le_one m1 v1 le_rfl hv hd
  rw [one_mul] at c1
  have c2 := Rel.mul hA zero_le_one zero_le_one m1 (by linarith) e1 c1 (he 1 (by omega))
  rw [one_mul] at c2
  have f1 := Rel.mul hA zero_le_one zero_le_one m1 le_rfl e1 hd.neg (he 1 (by omega))
  rw [one_mul] at f1
  have g1 := Rel.mul hA zero_le_one zero_le_one m1 v1 (by norm_num) hv hdd
  rw [one_mul] at g1
  have g2 := Rel.mul hA zero_le_one zero_le_one m1 (by linarith) le_rfl g1 hd
  rw [one_mul] at g2
  have g3 := Rel.mul hA zero_le_one zero_le_one m1 (by linarith) e1 g2 (he 2 (by omega))
  rw [one_mul] at g3
  have k1 : 1 ≤ 12 * (12 * (12 * (Bv * 12) * 1) * Be) := by
    have : 12 * (12 * (12 * (Bv * 12) * 1) * Be) = 20736 * (Bv * Be) := by ring
    rw [this]; linarith
  have g4 := Rel.divLit hA hA.mu1 k1 g3 (q := 2) (by norm_num)
  have f2 := Rel.sub hA hA.mu1 (by linarith) (by linarith) f1 g4
  have k2 : 1 ≤ 12 * (12 * (Bv * 1) * Be) := by
    have : 12 * (12 * (Bv * 1) * Be) = 144 * (Bv * Be) := by ring
    rw [this]; linarith
  have b0 : 1 ≤ bStart Be Bv := by unfold bStart; linarith
  have z : Rel w 1 (bStart Be Bv) (0 : Fl fl) 0 := Rel.zero hA zero_le_one (by linarith)
  unfold body
  refine etaLoop_rel hA hb hh e1 (by norm_num) he hdd N 0 (by omega) b0 ⟨⟨z, z, c2.mono hA zero_le_one ?_, z⟩, ⟨z, z, f2.mono hA zero_le_one ?_, z⟩⟩
  · unfold bStart; linarith
  · unfold bStart; linarith

end Verif.Fp
