import Verif.Model.Liouville
import Verif.Props.Poly
import Mathlib.Analysis.SpecialFunctions.Pow.Deriv
import Mathlib.Analysis.SpecialFunctions.Sqrt

/-!
# Liouville normal form and boundary values: C48, C49, C50
-/
namespace Verif.Liouville
open Verif.Poly Verif.YT

/-! ## C48 -/

theorem normX_hasDerivAt (pc : Piece ℝ) (x : ℝ) : HasDerivAt pc.normX (1 / (pc.xmax - pc.xmin)) x := by
  have := ((hasDerivAt_id x).sub_const pc.xmin).div_const (pc.xmax - pc.xmin)
  exact this

theorem normR_hasDerivAt (pc : Piece ℝ) (x : ℝ) : HasDerivAt pc.normR (1 / (pc.rmax - pc.rmin)) x := by
  have := ((hasDerivAt_id x).sub_const pc.rmin).div_const (pc.rmax - pc.rmin)
  exact this

theorem second_hasDerivAt {n : ℕ} (p : Poly ℝ n) (x : ℝ) :
    HasDerivAt (fun t => derivativeAt 1 p t) (derivativeAt 2 p x) x := by
  have e : (fun t => derivativeAt 1 p t) = fun t => (Polynomial.derivative (toPoly p)).eval t := by
    funext t; rw [C44_derivative_formal 1]; rfl
  rw [e, C44_derivative_formal 2]
  exact (Polynomial.derivative (toPoly p)).hasDerivAt x

/-- **C48.** On a piece, with `F(x)` the stored polynomial for `p·w` as a function of `x`, the potential returned by `V(x)` is
`q/w + m''/m` for `m = F^(1/4)`, the derivatives taken with respect to `x`; `q` and `w` are taken at the point `r = x2r(x)`. -/
theorem C48_potential (q : ℝ → ℝ) (pc : Piece ℝ) (x : ℝ) (hpos : 0 < eval pc.pwx (pc.normX x)) :
    pieceV q pc x = q (pc.x2r (pc.normX x)) / eval pc.w (pc.normR (pc.x2r (pc.normX x))) +
      deriv (deriv (fun t => (eval pc.pwx (pc.normX t)) ^ (1 / 4 : ℝ))) x / (eval pc.pwx (pc.normX x)) ^ (1 / 4 : ℝ) := by
  set h := pc.xmax - pc.xmin with hh
  have dF : ∀ t, HasDerivAt (fun t => eval pc.pwx (pc.normX t)) (derivativeAt 1 pc.pwx (pc.normX t) / h) t := by
    intro t
    have := HasDerivAt.comp (h₂ := fun s => eval pc.pwx s) t (C44_hasDerivAt pc.pwx (pc.normX t)) (normX_hasDerivAt pc t)
    refine this.congr_deriv ?_
    ring
  have ddF : ∀ t, HasDerivAt (fun t => derivativeAt 1 pc.pwx (pc.normX t) / h) (derivativeAt 2 pc.pwx (pc.normX t) / (h * h)) t := by
    intro t
    have := (HasDerivAt.comp (h₂ := fun s => derivativeAt 1 pc.pwx s) t (second_hasDerivAt pc.pwx (pc.normX t)) (normX_hasDerivAt pc t)).div_const h
    refine this.congr_deriv ?_
    rw [mul_one_div, div_div]
  set F := fun t => eval pc.pwx (pc.normX t) with hF
  set F1 := fun t => derivativeAt 1 pc.pwx (pc.normX t) / h with hF1
  have hcont : ContinuousAt F x := (dF x).continuousAt
  have hev : ∀ᶠ t in nhds x, 0 < F t := hcont.eventually (lt_mem_nhds hpos)
  have dm : ∀ t, 0 < F t → HasDerivAt (fun t => F t ^ (1 / 4 : ℝ)) (F1 t * (1 / 4) * F t ^ ((1 / 4 : ℝ) - 1)) t :=
    fun t ht => (dF t).rpow_const (Or.inl ht.ne')
  have hd : deriv (fun t => F t ^ (1 / 4 : ℝ)) =ᶠ[nhds x] fun t => F1 t * (1 / 4) * F t ^ ((1 / 4 : ℝ) - 1) :=
    hev.mono (fun t ht => (dm t ht).deriv)
  have d2 : HasDerivAt (fun t => F1 t * (1 / 4) * F t ^ ((1 / 4 : ℝ) - 1))
      (derivativeAt 2 pc.pwx (pc.normX x) / (h * h) * (1 / 4) * F x ^ ((1 / 4 : ℝ) - 1) +
        F1 x * (1 / 4) * (F1 x * ((1 / 4 : ℝ) - 1) * F x ^ ((1 / 4 : ℝ) - 1 - 1))) x :=
    ((ddF x).mul_const (1 / 4)).mul ((dF x).rpow_const (Or.inl (ne_of_gt hpos)))
  rw [hd.deriv_eq, d2.deriv]
  have p1 : F x ^ ((1 / 4 : ℝ) - 1) = F x ^ (1 / 4 : ℝ) / F x := by rw [Real.rpow_sub hpos, Real.rpow_one]
  have p2 : F x ^ ((1 / 4 : ℝ) - 1 - 1) = F x ^ (1 / 4 : ℝ) / F x / F x := by rw [Real.rpow_sub hpos, p1, Real.rpow_one]
  have hm : F x ^ (1 / 4 : ℝ) ≠ 0 := (Real.rpow_pos_of_pos hpos _).ne'
  have hFx : F x ≠ 0 := hpos.ne'
  rw [p1, p2]
  simp only [pieceV, ccmp_lit]
  rw [← hh]
  change _ - _ * (F1 x / (_ * F x) * (F1 x / (_ * F x))) + derivativeAt 2 pc.pwx (pc.normX x) / (h * h) / (_ * F x) = _
  set G := derivativeAt 2 pc.pwx (pc.normX x) / (h * h)
  set Q := q (pc.x2r (pc.normX x)) / eval pc.w (pc.normR (pc.x2r (pc.normX x)))
  have hFx' : eval pc.pwx (pc.normX x) = F x := rfl
  rw [hFx'] at *
  push_cast
  field_simp
  ring

/-- **C48, why this potential.** Let `x(r)` have derivative `sqrt(w/p)`, let `M(x(r))⁴ = p(r) w(r)` with `M > 0`, and
`z(r) = Y(x(r)) / M(x(r))`. Then `p z'` is differentiable and, at every `r`,
`-(p z')' + q z = E w z` holds exactly when `Y'' = (q/w + M''/M - E) Y` holds at `x(r)`: the Sturm–Liouville equation becomes the
Schrödinger equation with the potential of `C48_potential`. -/
theorem C48_normal_form {a b : ℝ} {p q w X M M1 M2 Y Y1 Y2 : ℝ → ℝ} (E : ℝ)
    (hp : ∀ r ∈ Set.Ioo a b, 0 < p r) (hw : ∀ r ∈ Set.Ioo a b, 0 < w r)
    (hX : ∀ r ∈ Set.Ioo a b, HasDerivAt X (Real.sqrt (w r / p r)) r)
    (hM : ∀ r ∈ Set.Ioo a b, 0 < M (X r) ∧ M (X r) ^ 4 = p r * w r)
    (hM1 : ∀ r ∈ Set.Ioo a b, HasDerivAt M (M1 (X r)) (X r)) (hM2 : ∀ r ∈ Set.Ioo a b, HasDerivAt M1 (M2 (X r)) (X r))
    (hY1 : ∀ r ∈ Set.Ioo a b, HasDerivAt Y (Y1 (X r)) (X r)) (hY2 : ∀ r ∈ Set.Ioo a b, HasDerivAt Y1 (Y2 (X r)) (X r)) :
    ∃ dz dpdz : ℝ → ℝ, (∀ r ∈ Set.Ioo a b, HasDerivAt (fun r => Y (X r) / M (X r)) (dz r) r) ∧
      (∀ r ∈ Set.Ioo a b, HasDerivAt (fun r => p r * dz r) (dpdz r) r) ∧
      ∀ r ∈ Set.Ioo a b, (-dpdz r + q r * (Y (X r) / M (X r)) = E * w r * (Y (X r) / M (X r)) ↔
        Y2 (X r) = (q r / w r + M2 (X r) / M (X r) - E) * Y (X r)) := by
  have hs : ∀ r ∈ Set.Ioo a b, Real.sqrt (w r / p r) * p r = M (X r) ^ 2 ∧ Real.sqrt (w r / p r) * M (X r) ^ 2 = w r := by
    intro r hr
    have h1 := hp r hr
    have h2 := hw r hr
    obtain ⟨h3, h4⟩ := hM r hr
    have e : Real.sqrt (w r / p r) = M (X r) ^ 2 / p r := by
      rw [Real.sqrt_eq_iff_mul_self_eq (by positivity) (by positivity)]
      field_simp
      linear_combination (-1 : ℝ) * h4
    rw [e]
    constructor
    · field_simp
    · field_simp; linear_combination h4
  refine ⟨fun r => Real.sqrt (w r / p r) * ((Y1 (X r) * M (X r) - Y (X r) * M1 (X r)) / M (X r) ^ 2),
    fun r => Real.sqrt (w r / p r) * (M (X r) * Y2 (X r) - M2 (X r) * Y (X r)), ?_, ?_, ?_⟩
  · intro r hr
    have d1 := HasDerivAt.comp (h₂ := Y) r (hY1 r hr) (hX r hr)
    have d2 := HasDerivAt.comp (h₂ := M) r (hM1 r hr) (hX r hr)
    have := d1.div d2 (hM r hr).1.ne'
    refine this.congr_deriv ?_
    simp only [Function.comp]
    have := (hM r hr).1.ne'
    field_simp
  · intro r hr
    have e : (fun r => p r * (Real.sqrt (w r / p r) * ((Y1 (X r) * M (X r) - Y (X r) * M1 (X r)) / M (X r) ^ 2))) =ᶠ[nhds r]
        fun r => Y1 (X r) * M (X r) - Y (X r) * M1 (X r) := by
      filter_upwards [Ioo_mem_nhds hr.1 hr.2] with s hs'
      have h1 := (hs s hs').1
      have h2 := (hM s hs').1.ne'
      rw [← mul_assoc, mul_comm (p s), h1]
      field_simp
    refine HasDerivAt.congr_of_eventuallyEq ?_ e
    have d1 := HasDerivAt.comp (h₂ := Y) r (hY1 r hr) (hX r hr)
    have d2 := HasDerivAt.comp (h₂ := M) r (hM1 r hr) (hX r hr)
    have d3 := HasDerivAt.comp (h₂ := Y1) r (hY2 r hr) (hX r hr)
    have d4 := HasDerivAt.comp (h₂ := M1) r (hM2 r hr) (hX r hr)
    refine ((d3.mul d2).sub (d1.mul d4)).congr_deriv ?_
    simp only [Function.comp]
    ring
  · intro r hr
    have h2 := (hs r hr).2
    have hM0 := (hM r hr).1
    have hw0 := hw r hr
    have hsp : 0 < Real.sqrt (w r / p r) := Real.sqrt_pos.mpr (div_pos hw0 (hp r hr))
    set s := Real.sqrt (w r / p r)
    have key : -(s * (M (X r) * Y2 (X r) - M2 (X r) * Y (X r))) + q r * (Y (X r) / M (X r)) - E * w r * (Y (X r) / M (X r)) =
        -(s * M (X r)) * (Y2 (X r) - (q r / w r + M2 (X r) / M (X r) - E) * Y (X r)) := by
      rw [← h2]
      field_simp
      ring
    constructor
    · intro h
      have : -(s * M (X r)) * (Y2 (X r) - (q r / w r + M2 (X r) / M (X r) - E) * Y (X r)) = 0 := by rw [← key, h, sub_self]
      rcases mul_eq_zero.mp this with h' | h'
      · have := mul_pos hsp hM0; linarith
      · linarith
    · intro h
      have : -(s * (M (X r) * Y2 (X r) - M2 (X r) * Y (X r))) + q r * (Y (X r) / M (X r)) - E * w r * (Y (X r) / M (X r)) = 0 := by
        rw [key, h, sub_self, mul_zero]
      linarith

/-- The hypotheses of `C48_normal_form` for `p = w = r²` on `(1, 2)`, `x = r`, `M = x`, `Y = sin`. -/
example : (∀ r ∈ Set.Ioo (1 : ℝ) 2, HasDerivAt (fun r => r) (Real.sqrt (r ^ 2 / r ^ 2)) r) ∧
    (∀ r ∈ Set.Ioo (1 : ℝ) 2, 0 < (fun x : ℝ => x) r ∧ (fun x : ℝ => x) r ^ 4 = r ^ 2 * r ^ 2) ∧
    (∀ r ∈ Set.Ioo (1 : ℝ) 2, HasDerivAt Real.sin (Real.cos r) r ∧ HasDerivAt Real.cos (-Real.sin r) r) := by
  refine ⟨fun r hr => ?_, fun r hr => ⟨by linarith [hr.1], by ring⟩, fun r _ => ⟨Real.hasDerivAt_sin r, Real.hasDerivAt_cos r⟩⟩
  have : r ^ 2 ≠ 0 := by have := hr.1; positivity
  rw [div_self this, Real.sqrt_one]; exact hasDerivAt_id r

/-! ## C50 -/

/-- `σ = (p w)^(-1/4)`: what the code computes as `1 / sqrt(p * sqrt(w / p))`. -/
theorem sigma_eq {p w : ℝ} (hp : 0 < p) (hw : 0 < w) : sigmaOf Real.sqrt p w = (p * w) ^ (-1 / 4 : ℝ) := by
  have h1 : p * Real.sqrt (w / p) = Real.sqrt (p * w) := by
    rw [eq_comm, Real.sqrt_eq_iff_mul_self_eq (by positivity) (by positivity)]
    have := Real.mul_self_sqrt (by positivity : (0:ℝ) ≤ w / p)
    symm
    calc p * Real.sqrt (w / p) * (p * Real.sqrt (w / p)) = p * p * (Real.sqrt (w / p) * Real.sqrt (w / p)) := by ring
      _ = p * w := by rw [this]; field_simp
  simp only [sigmaOf, xdrOf, ccmp_lit, h1]
  push_cast
  rw [Real.sqrt_eq_rpow, Real.sqrt_eq_rpow, ← Real.rpow_mul (by positivity), one_div, ← Real.rpow_neg (by positivity)]
  norm_num

/-- **C50.** Let `p`, `w` be the stored coefficient polynomials of a piece, as functions of `r`, positive at `r`; `x` any map with
`x' = sqrt(w/p)` at `r`, and `z = (p w)^(-1/4) · Y∘x` with `Y` differentiable at `x(r)`; the same for the energy derivative.
Then `z2y` maps `(z, z')` to `(Y, dY/dx)`. -/
theorem C50_z2y (pc : Piece ℝ) {r : ℝ} {x Y YE : ℝ → ℝ} {Y1 YE1 z1 zE1 : ℝ}
    (hp : 0 < eval pc.p (pc.normR r)) (hw : 0 < eval pc.w (pc.normR r))
    (hx : HasDerivAt x (Real.sqrt (eval pc.w (pc.normR r) / eval pc.p (pc.normR r))) r)
    (hY : HasDerivAt Y Y1 (x r)) (hYE : HasDerivAt YE YE1 (x r))
    (hz : HasDerivAt (fun s => (eval pc.p (pc.normR s) * eval pc.w (pc.normR s)) ^ (-1 / 4 : ℝ) * Y (x s)) z1 r)
    (hzE : HasDerivAt (fun s => (eval pc.p (pc.normR s) * eval pc.w (pc.normR s)) ^ (-1 / 4 : ℝ) * YE (x s)) zE1 r) :
    pieceZ2Y Real.sqrt pc (pc.normR r)
      ⟨(eval pc.p (pc.normR r) * eval pc.w (pc.normR r)) ^ (-1 / 4 : ℝ) * Y (x r), z1,
       (eval pc.p (pc.normR r) * eval pc.w (pc.normR r)) ^ (-1 / 4 : ℝ) * YE (x r), zE1⟩ = ⟨Y (x r), Y1, YE (x r), YE1⟩ := by
  set h := pc.rmax - pc.rmin with hh
  have dp : HasDerivAt (fun s => eval pc.p (pc.normR s)) (derivativeAt 1 pc.p (pc.normR r) / h) r := by
    refine (HasDerivAt.comp (h₂ := fun s => eval pc.p s) r (C44_hasDerivAt pc.p (pc.normR r)) (normR_hasDerivAt pc r)).congr_deriv ?_
    ring
  have dw : HasDerivAt (fun s => eval pc.w (pc.normR s)) (derivativeAt 1 pc.w (pc.normR r) / h) r := by
    refine (HasDerivAt.comp (h₂ := fun s => eval pc.w s) r (C44_hasDerivAt pc.w (pc.normR r)) (normR_hasDerivAt pc r)).congr_deriv ?_
    ring
  have hσ := sigma_eq hp hw
  set p := eval pc.p (pc.normR r) with hpd
  set w := eval pc.w (pc.normR r) with hwd
  set dp' := derivativeAt 1 pc.p (pc.normR r) / h with hdp
  set dw' := derivativeAt 1 pc.w (pc.normR r) / h with hdw
  have hpw : 0 < p * w := mul_pos hp hw
  have dσ := (dp.mul dw).rpow_const (p := (-1 / 4 : ℝ)) (Or.inl (ne_of_gt hpw))
  set σ := (p * w) ^ (-1 / 4 : ℝ) with hσd
  have hσ0 : 0 < σ := Real.rpow_pos_of_pos hpw _
  have hval : (dp' * w + p * dw') * (-1 / 4) * (p * w) ^ ((-1 / 4 : ℝ) - 1) = dsigmaOf Real.sqrt p w dp' dw' := by
    rw [Real.rpow_sub hpw, Real.rpow_one, ← hσd]
    simp only [dsigmaOf, hσ, ccmp_lit]
    push_cast
    field_simp
  have hz1 : z1 = dsigmaOf Real.sqrt p w dp' dw' * Y (x r) + σ * (Y1 * Real.sqrt (w / p)) := by
    have d := dσ.mul (HasDerivAt.comp (h₂ := Y) r hY hx)
    refine hz.unique (d.congr_deriv ?_)
    rw [← hval]; rfl
  have hzE1' : zE1 = dsigmaOf Real.sqrt p w dp' dw' * YE (x r) + σ * (YE1 * Real.sqrt (w / p)) := by
    have d := dσ.mul (HasDerivAt.comp (h₂ := YE) r hYE hx)
    refine hzE.unique (d.congr_deriv ?_)
    rw [← hval]; rfl
  have hs0 : Real.sqrt (w / p) ≠ 0 := (Real.sqrt_pos.mpr (div_pos hw hp)).ne'
  have hσ' := hσ0.ne'
  simp only [pieceZ2Y, z2yCore]
  rw [← hpd, ← hwd, ← hh, ← hdp, ← hdw, hσ, hz1, hzE1']
  simp only [xdrOf, ccmp_lit]
  set D := dsigmaOf Real.sqrt p w dp' dw'
  push_cast
  congr 1 <;> field_simp <;> ring

/-- **C50, linearity.** `z2y` is linear in the boundary values, so a boundary condition (a line of values) becomes a boundary
condition. -/
theorem C50_linear (pc : Piece ℝ) (nr c d : ℝ) (z u : Y ℝ) :
    pieceZ2Y Real.sqrt pc nr ⟨c * z.y + d * u.y, c * z.dy + d * u.dy, c * z.yE + d * u.yE, c * z.dyE + d * u.dyE⟩ =
      let a := pieceZ2Y Real.sqrt pc nr z
      let b := pieceZ2Y Real.sqrt pc nr u
      ⟨c * a.y + d * b.y, c * a.dy + d * b.dy, c * a.yE + d * b.yE, c * a.dyE + d * b.dyE⟩ := by
  simp only [pieceZ2Y, z2yCore]
  congr 1 <;> ring

/-- **C50, Dirichlet and no loss.** A boundary value is mapped to zero function value exactly when it has zero function value, and
two different boundary values are never identified. -/
theorem C50_dirichlet_injective (pc : Piece ℝ) (nr : ℝ) (hp : 0 < eval pc.p nr) (hw : 0 < eval pc.w nr) (z u : Y ℝ) :
    ((pieceZ2Y Real.sqrt pc nr z).y = 0 ↔ z.y = 0) ∧ (pieceZ2Y Real.sqrt pc nr z = pieceZ2Y Real.sqrt pc nr u → z = u) := by
  have hσ0 : 0 < sigmaOf Real.sqrt (eval pc.p nr) (eval pc.w nr) := by
    rw [sigma_eq hp hw]; exact Real.rpow_pos_of_pos (mul_pos hp hw) _
  have hs0 : 0 < xdrOf Real.sqrt (eval pc.p nr) (eval pc.w nr) := Real.sqrt_pos.mpr (div_pos hw hp)
  simp only [pieceZ2Y, z2yCore, ccmp_lit]
  set σ := sigmaOf Real.sqrt (eval pc.p nr) (eval pc.w nr)
  set s := xdrOf Real.sqrt (eval pc.p nr) (eval pc.w nr)
  set D := dsigmaOf Real.sqrt (eval pc.p nr) (eval pc.w nr) (derivativeAt 1 pc.p nr / (pc.rmax - pc.rmin)) (derivativeAt 1 pc.w nr / (pc.rmax - pc.rmin))
  have c1 : ((1 : ℚ) : ℝ) / σ ≠ 0 := by push_cast; exact (one_div_pos.mpr hσ0).ne'
  have c2 : ((1 : ℚ) : ℝ) / (σ * s) ≠ 0 := by push_cast; exact (one_div_pos.mpr (mul_pos hσ0 hs0)).ne'
  constructor
  · simp [mul_eq_zero]
    exact fun h => absurd h hσ0.ne'
  · intro h
    rw [Y.mk.injEq] at h
    obtain ⟨h1, h2, h3, h4⟩ := h
    have e1 := mul_right_cancel₀ c1 h1
    have e3 := mul_right_cancel₀ c1 h3
    have e2 := mul_right_cancel₀ c2 h2
    have e4 := mul_right_cancel₀ c2 h4
    rw [e1] at e2
    rw [e3] at e4
    cases z; cases u
    simp only [Y.mk.injEq]
    exact ⟨e1, by simpa using e2, e3, by simpa using e4⟩

/-- A piece on `[0, 1]` with `p = w = 1 + r` and `pw = 1 + x`. -/
def slopePiece : Piece ℝ := ⟨0, 1, 0, 1, ⟨fun i => if i = 1 then 1 else 0⟩, ofList 8 [1, 1], ofList 8 [1, 1], ofList 10 [1, 1]⟩

/-- It meets the hypotheses of `C48_potential` and `C50_z2y` (with `x = r`, `Y = sin`) at `r = x = 1/2`. -/
example : 0 < eval slopePiece.pwx (slopePiece.normX (1 / 2)) ∧ 0 < eval slopePiece.p (slopePiece.normR (1 / 2)) ∧
    0 < eval slopePiece.w (slopePiece.normR (1 / 2)) ∧
    HasDerivAt (fun s : ℝ => s) (Real.sqrt (eval slopePiece.w (slopePiece.normR (1 / 2)) / eval slopePiece.p (slopePiece.normR (1 / 2)))) (1 / 2) ∧
    HasDerivAt Real.sin (Real.cos (1 / 2)) (1 / 2) ∧
    ∃ z1, HasDerivAt (fun s => (eval slopePiece.p (slopePiece.normR s) * eval slopePiece.w (slopePiece.normR s)) ^ (-1 / 4 : ℝ) * Real.sin s) z1 (1 / 2) := by
  have e : ∀ t : ℝ, eval slopePiece.p t = 1 + t := by
    intro t
    simp only [slopePiece, C43_eval, value, DEGREE, Finset.sum_range_succ, Finset.sum_range_zero, ofList]
    simp
  have e' : ∀ t : ℝ, eval slopePiece.w t = 1 + t := e
  have n : ∀ t : ℝ, slopePiece.normR t = t := fun t => by simp [Piece.normR, slopePiece]
  refine ⟨?_, ?_, ?_, ?_, Real.hasDerivAt_sin _, ?_⟩
  · simp only [slopePiece, Piece.normX, C43_eval, value, DEGREE, Finset.sum_range_succ, Finset.sum_range_zero, ofList]
    norm_num
  · rw [e, n]; norm_num
  · rw [e', n]; norm_num
  · rw [e, e', n, div_self (by norm_num), Real.sqrt_one]; exact hasDerivAt_id _
  · simp only [e, e', n]
    have d : HasDerivAt (fun s : ℝ => (1 + s) * (1 + s)) (1 * (1 + 1 / 2) + (1 + 1 / 2) * 1) (1 / 2) :=
      ((hasDerivAt_id (1 / 2 : ℝ)).const_add 1).mul ((hasDerivAt_id (1 / 2 : ℝ)).const_add 1)
    exact ⟨_, (d.rpow_const (Or.inl (by norm_num))).mul (Real.hasDerivAt_sin _)⟩

/-! ## C49 -/

/-- **C49, partial: the value components.** At the same point the values (and their energy derivatives) survive the round trip. -/
theorem C49_value_partial (pc : Piece ℝ) (nr : ℝ) (hp : 0 < eval pc.p nr) (hw : 0 < eval pc.w nr) (z : Y ℝ) :
    (pieceY2Z Real.sqrt pc nr (pieceZ2Y Real.sqrt pc nr z)).y = z.y ∧ (pieceY2Z Real.sqrt pc nr (pieceZ2Y Real.sqrt pc nr z)).yE = z.yE := by
  have hσ0 : sigmaOf Real.sqrt (eval pc.p nr) (eval pc.w nr) ≠ 0 := by
    rw [sigma_eq hp hw]; exact (Real.rpow_pos_of_pos (mul_pos hp hw) _).ne'
  simp only [pieceY2Z, y2zCore, pieceZ2Y, z2yCore, ccmp_lit]
  push_cast
  constructor <;> field_simp

/-- **C49, partial: what the derivative component would have to be.** The formula `dσ·y + σ·x'·y'` undoes `z2y`. -/
theorem C49_corrected_partial (pc : Piece ℝ) (nr : ℝ) (hp : 0 < eval pc.p nr) (hw : 0 < eval pc.w nr) (z : Y ℝ) :
    let p := eval pc.p nr
    let w := eval pc.w nr
    let D := dsigmaOf Real.sqrt p w (derivativeAt 1 pc.p nr / (pc.rmax - pc.rmin)) (derivativeAt 1 pc.w nr / (pc.rmax - pc.rmin))
    let y := pieceZ2Y Real.sqrt pc nr z
    D * y.y + sigmaOf Real.sqrt p w * xdrOf Real.sqrt p w * y.dy = z.dy := by
  have hσ0 : sigmaOf Real.sqrt (eval pc.p nr) (eval pc.w nr) ≠ 0 := by
    rw [sigma_eq hp hw]; exact (Real.rpow_pos_of_pos (mul_pos hp hw) _).ne'
  have hs0 : xdrOf Real.sqrt (eval pc.p nr) (eval pc.w nr) ≠ 0 := (Real.sqrt_pos.mpr (div_pos hw hp)).ne'
  simp only [pieceZ2Y, z2yCore, ccmp_lit]
  push_cast
  field_simp
  ring

/-- **C49, partial: what `y2z` computes instead.** On every piece, with `P1`, `W1` the derivatives of the stored `p`, `w` at `r` and
`σ = (p w)^(-1/4)`: the values are multiplied by `σ` as they should, but the derivative component is `σ'·y' + σ·√(w/p)·y` — the roles of `y`
and `y'` are exchanged (`C49_corrected_partial` has the right formula `σ'·y + σ·√(w/p)·y'`). -/
theorem C49_computed_partial (pc : Piece ℝ) {r P1 W1 : ℝ} (hp : 0 < eval pc.p (pc.normR r)) (hw : 0 < eval pc.w (pc.normR r))
    (dP : HasDerivAt (fun s => eval pc.p (pc.normR s)) P1 r) (dW : HasDerivAt (fun s => eval pc.w (pc.normR s)) W1 r) (y : Y ℝ) :
    let p := eval pc.p (pc.normR r)
    let w := eval pc.w (pc.normR r)
    let σ := (p * w) ^ (-1 / 4 : ℝ)
    let σ1 := -1 / 4 * σ * (P1 / p + W1 / w)
    pieceY2Z Real.sqrt pc (pc.normR r) y =
      ⟨σ * y.y, σ1 * y.dy + σ * Real.sqrt (w / p) * y.y, σ * y.yE, σ1 * y.dyE + σ * Real.sqrt (w / p) * y.yE⟩ := by
  have e1 : derivativeAt 1 pc.p (pc.normR r) / (pc.rmax - pc.rmin) = P1 := by
    refine HasDerivAt.unique ((HasDerivAt.comp (h₂ := fun s => eval pc.p s) r (C44_hasDerivAt pc.p (pc.normR r)) (normR_hasDerivAt pc r)).congr_deriv ?_) dP
    ring
  have e2 : derivativeAt 1 pc.w (pc.normR r) / (pc.rmax - pc.rmin) = W1 := by
    refine HasDerivAt.unique ((HasDerivAt.comp (h₂ := fun s => eval pc.w s) r (C44_hasDerivAt pc.w (pc.normR r)) (normR_hasDerivAt pc r)).congr_deriv ?_) dW
    ring
  simp only [pieceY2Z, y2zCore, dsigmaOf, e1, e2, sigma_eq hp hw, xdrOf, ccmp_lit]
  push_cast
  congr 1 <;> ring

/-- A piece with `p = w = 1` on `[0, 1]` and `x = r`. -/
def unitPiece : Piece ℝ := ⟨0, 1, 0, 1, ⟨fun i => if i = 1 then 1 else 0⟩, const 8 1, const 8 1, const 10 1⟩

theorem unit_eval (nr : ℝ) : eval unitPiece.p nr = 1 ∧ eval unitPiece.w nr = 1 ∧ derivativeAt 1 unitPiece.p nr = 0 ∧
    derivativeAt 1 unitPiece.w nr = 0 := by
  have h1 : ∀ t : ℝ, eval (const 8 (1 : ℝ)) t = 1 := fun t => (C43_scalar (zero 8 : Poly ℝ 8) 1 t).2.2.2.2.2.2.1
  have h2 : derivativeAt 1 (const 8 (1 : ℝ)) nr = 0 := by
    refine (C44_hasDerivAt (const 8 (1 : ℝ)) nr).unique ?_
    have e : (fun t => eval (const 8 (1 : ℝ)) t) = fun _ => 1 := funext h1
    rw [e]; exact hasDerivAt_const _ _
  exact ⟨h1 nr, h1 nr, h2, h2⟩

/-- **C49 fails.** For `p = w = 1` both transformations should be the identity, and `z2y` is; `y2z` however returns the function
value in place of the derivative: the round trip loses the derivative for every `z` with `z' ≠ z`. -/
theorem C49_fails (nr : ℝ) (z : Y ℝ) :
    pieceZ2Y Real.sqrt unitPiece nr z = z ∧
    pieceY2Z Real.sqrt unitPiece nr z = ⟨z.y, z.y, z.yE, z.yE⟩ ∧
    (z.dy ≠ z.y → pieceY2Z Real.sqrt unitPiece nr (pieceZ2Y Real.sqrt unitPiece nr z) ≠ z) := by
  obtain ⟨h1, h2, h3, h4⟩ := unit_eval nr
  have e1 : pieceZ2Y Real.sqrt unitPiece nr z = z := by
    simp only [pieceZ2Y, z2yCore, xdrOf, sigmaOf, dsigmaOf, h1, h2, h3, h4, ccmp_lit]
    cases z; simp
  have e2 : pieceY2Z Real.sqrt unitPiece nr z = ⟨z.y, z.y, z.yE, z.yE⟩ := by
    simp only [pieceY2Z, y2zCore, xdrOf, sigmaOf, dsigmaOf, h1, h2, h3, h4, ccmp_lit]
    cases z; simp
  refine ⟨e1, e2, fun h hc => ?_⟩
  rw [e1, e2] at hc
  have : z.y = z.dy := congrArg Y.dy hc
  exact h this.symm

theorem findPiece_single (pc : Piece ℝ) (hi : Piece ℝ → ℝ) (v : ℝ) : findPiece [pc] hi v = .ok pc := by
  simp only [findPiece]
  rw [lowerBound]
  simp only [List.length_singleton, one_ne_zero, dite_false, Nat.reduceDiv, Nat.zero_add]
  rw [lowerBound, lowerBound]
  simp only [Nat.reduceSub, dite_true]
  by_cases h : hi pc ≤ v
  · simp [h]
  · simp [h]

/-- **C49 fails, as seen by a caller.** The eigenfunction returned for a Sturm–Liouville problem with `p = w = 1` reports its value
also as its derivative, whatever the eigenfunction of the transformed problem is. -/
theorem C49_eigenfunction_fails (ef : ℝ → Outcome (ℝ × ℝ)) (r v d : ℝ) (hx : r2x [unitPiece] r = .ok r) (hef : ef r = .ok (v, d)) :
    slEigenfunction Real.sqrt [unitPiece] ef r = .ok (v, v) := by
  have hf : findPiece [unitPiece] Piece.xmax r = .ok unitPiece := findPiece_single _ _ _
  simp only [slEigenfunction, hx, hef, Outcome.bind_ok, y2z, hf, Outcome.pure_eq, (C49_fails _ _).2.1]

/-- `r2x` is the identity on that piece, e.g. at `r = 1/3`. -/
example : r2x [unitPiece] (1 / 3 : ℝ) = .ok (1 / 3) := by
  have hf : findPiece [unitPiece] Piece.rmax (1 / 3 : ℝ) = .ok unitPiece := findPiece_single _ _ _
  simp only [r2x, hf, Outcome.bind_ok, Outcome.pure_eq]
  congr 1
  simp only [unitPiece, Piece.normR, C43_eval, value, DEGREE, Finset.sum_range_succ, Finset.sum_range_zero]
  norm_num

end Verif.Liouville
