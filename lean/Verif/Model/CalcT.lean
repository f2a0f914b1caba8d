import Verif.Model.Eta
import Verif.Model.FormulaTables

/-!
# Model of the transfer matrices of a sector
`matslise/matslise/sector.cpp:49-97`
-/
namespace Verif.CalcT
open Verif.YT Verif.Formulas

/-- What `calculateT` reads of a sector: its width, the potential coefficients `vs`, and the two tables
`t_coeff`, `t_coeff_h` (matslise.h:202-214). -/
structure TSec (K : Type) where
  h : K
  v0 : K
  coeff : Nat → Nat → M2 K
  coeffH : Nat → M2 K

section ops
variable {K : Type} [Add K] [Sub K] [Mul K] [Div K] [Neg K] [Zero K] [One K] [CCmp K]

/-- matrix sum -/
def m2Add (m n : M2 K) : M2 K := ⟨m.a + n.a, m.b + n.b, m.c + n.c, m.d + n.d⟩
/-- matrix times scalar -/
def m2Smul (m : M2 K) (f : K) : M2 K := ⟨m.a * f, m.b * f, m.c * f, m.d * f⟩
/-- zero matrix -/
def m2Zero : M2 K := ⟨0, 0, 0, 0⟩

/-- `calculateTCoeffs` — sector.cpp:49-53, matslise_formulas.cpp:3-324: the tables evaluated at the
width and the coefficients. An index outside the tables gives the zero matrix (never read). -/
def mkSec (h : K) (vs : Nat → K) : TSec K where
  h := h
  v0 := vs 0
  coeff i j := match (tDelta.getD i []).drop j with
    | [] => m2Zero
    | e :: _ => e.val vs h
  coeffH i := match tH.drop i with
    | [] => m2Zero
    | e :: _ => e.val vs h

/-- `for (i = n - 2; i >= 0; --i) r = r * x + f[i]` — horner.h:4-6; `k` rounds left. -/
def hornerLoop (f : Nat → M2 K) (x : K) : Nat → M2 K → M2 K
  | 0, r => r
  | k + 1, r => hornerLoop f x k (m2Add (m2Smul r x) (f k))

/-- `horner<Matrix>(f, x, n)` — horner.h:2-8. -/
def horner (f : Nat → M2 K) (x : K) (n : Nat) : M2 K := hornerLoop f x (n - 1) (f (n - 1))

/-- The loop `for (i = 0; i < N; ++i)` that adds `hor * eta[i]` to `t.t` and `hor * (-dd * eta[i+1] / 2)`
to `t.dt` (the latter for `i + 1 < N`) — sector.cpp:70-76, 89-94; `k` rounds left, the next one is `i`. -/
def etaLoop (N : Nat) (hor : Nat → M2 K) (eta : Nat → K) (dd : K) : (k : Nat) → (i : Nat) → T K → T K
  | 0, _, t => t
  | k + 1, i, t =>
    let m := hor i
    let t1 : T K := ⟨m2Add t.t (m2Smul m (eta i)),
      if i + 1 < N then m2Add t.dt (m2Smul m (-dd * eta (i + 1) / CCmp.lit 2)) else t.dt⟩
    etaLoop N hor eta dd k (i + 1) t1

/-- The common body: `N` is the number of η functions, `delta` the step length — sector.cpp:61-78, 84-96. -/
def body (N : Nat) (hor : Nat → M2 K) (eta : Nat → K) (vsE delta : K) : T K :=
  let dd := delta * delta
  let t : T K := ⟨⟨0, 0, vsE * delta * eta 1, 0⟩,
    ⟨0, 0, -delta * eta 1 - vsE * dd * delta * eta 2 / CCmp.lit 2, 0⟩⟩
  etaLoop N hor eta dd N 0 t

/-- `MATSLISE_ETA_delta`, `MATSLISE_HMAX_delta`, `MATSLISE_ETA_h` — formula_constants.h:4-6. -/
def etaDelta : Nat := 9
def hmaxDelta : Nat := 17
def etaH : Nat := 10

/-- `EPS` — sector.cpp:10. -/
def EPS : ℚ := 1 / 1000000000000

/-- The part of `calculateT(E, delta, use_h)` after the two early exits — sector.cpp:61-78. `eta n Z` is
`calculateEta<Scalar, n>(Z)`. -/
def calcDelta (eta : Nat → K → Nat → K) (s : TSec K) (E delta : K) : T K :=
  let vsE := s.v0 - E
  body etaDelta (fun i => horner (s.coeff i) delta hmaxDelta) (eta etaDelta (vsE * (delta * delta))) vsE delta

/-- `calculateT(E, use_h)` with `use_h = true` — sector.cpp:84-96. (The code evaluates
`(vs[0] - E) * h * h`, the same number.) -/
def calcH (eta : Nat → K → Nat → K) (s : TSec K) (E : K) : T K :=
  let vsE := s.v0 - E
  body etaH s.coeffH (eta etaH (vsE * (s.h * s.h))) vsE s.h

/-- `calculateT(E, delta, use_h)` — sector.cpp:55-79, with the length `eps` up to which lengths count as equal as a parameter. -/
def calculateTWith (eps : K) (eta : Nat → K → Nat → K) (s : TSec K) (E delta : K) (useH : Bool) : T K :=
  if CCmp.le (Eta.absK delta) eps then T.one
  else if useH && CCmp.le (Eta.absK (delta - s.h)) eps then calcH eta s E
  else calcDelta eta s E delta

/-- `calculateT(E, delta, use_h)` — sector.cpp:55-79: `eps` is `EPS`. -/
def calculateT (eta : Nat → K → Nat → K) (s : TSec K) (E delta : K) (useH : Bool) : T K :=
  calculateTWith (CCmp.lit EPS) eta s E delta useH

/-- `calculateT(E, use_h)` — sector.cpp:81-97. -/
def calculateTFull (eta : Nat → K → Nat → K) (s : TSec K) (E : K) (useH : Bool) : T K :=
  if useH then calcH eta s E else calculateT eta s E s.h false

end ops
end Verif.CalcT
