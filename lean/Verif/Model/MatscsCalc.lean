import Verif.Model.Matscs
import Verif.Model.MatscsTables
import Verif.Model.CalcT
import Verif.Model.Legendre
import Mathlib.Algebra.Algebra.Basic
import Mathlib.LinearAlgebra.Matrix.ConjTranspose

/-!
# Model of the transfer matrices of a sector of a coupled system
`matslise/matscs/sector.cpp:15-118`, `matslise/matscs/matscs_formulas.cpp`

A `2n × 2n` matrix is written as its four `n × n` blocks (`M2`); `A` is the ring of `n × n` matrices. Multiplication with
`kroneckerProduct(Identity(2), D)` multiplies every block with `D`.
-/
namespace Verif.MFormulas
open Verif.YT Verif.CalcT

section ops
variable {K A : Type} [Field K] [Ring A] [Algebra K A]

/-- The decimal literal, read as the exact number. -/
def MTerm.lit (t : MTerm) : K := ((t.num : Int) : K) / 10 ^ t.dec

/-- `v_i * v_j * …` — matscs_formulas.cpp:29-144 (the association of the products does not matter in exact arithmetic) -/
def word (v : Nat → A) : List Nat → A
  | [] => 1
  | i :: l => v i * word v l

/-- A sum of terms; `q` gives the value of a literal. -/
def termsVal (q : MTerm → K) (v : Nat → A) : List MTerm → A
  | [] => 0
  | t :: l => q t • word v t.w + termsVal q v l

/-- The value of a block: the sum of `h^p * (…)`. -/
def entryVal (q : MTerm → K) (v : Nat → A) (h : K) : MEntry → A
  | [] => 0
  | (p, ts) :: l => h ^ p • termsVal q v ts + entryVal q v h l

/-- The value of a matrix. -/
def MEntry4.val (q : MTerm → K) (v : Nat → A) (h : K) (e : MEntry4) : M2 A :=
  ⟨entryVal q v h e.a, entryVal q v h e.b, entryVal q v h e.c, entryVal q v h e.d⟩

/-- `t_coeff(i, j)` as set by `calculate_tcoeff_matrix` — matscs_formulas.cpp:4-419. An index outside the table gives the zero
matrix (never read). -/
def coeffD (q : MTerm → K) (v : Nat → A) (h : K) (i j : Nat) : M2 A :=
  match (tDelta.getD i []).drop j with
  | [] => m2Zero
  | e :: _ => e.val q v h

/-- `t_coeff_h[i]` — matscs_formulas.cpp:4-419. -/
def coeffH (q : MTerm → K) (v : Nat → A) (h : K) (i : Nat) : M2 A :=
  match tH.drop i with
  | [] => m2Zero
  | e :: _ => e.val q v h

/-- matrix times number, blockwise -/
def m2Scale (x : K) (m : M2 A) : M2 A := ⟨x • m.a, x • m.b, x • m.c, x • m.d⟩

/-- `for (i = n - 2; i >= 0; --i) r = r * x + f[i]` — horner.h:4-6; `k` rounds left. -/
def hornerLoopM (f : Nat → M2 A) (x : K) : Nat → M2 A → M2 A
  | 0, r => r
  | k + 1, r => hornerLoopM f x k (m2Add (m2Scale x r) (f k))

/-- `horner<MatrixXs>(f, x, n)` — horner.h:2-8. -/
def hornerM (f : Nat → M2 A) (x : K) (n : Nat) : M2 A := hornerLoopM f x (n - 1) (f (n - 1))

/-- The loop `for (i = 0; i < MATSCS_ETA; ++i)` — matscs/sector.cpp:75-86: adds `coeff * (I ⊗ diag(eta.row(i)))` to `t.t` and
`coeff * (I ⊗ diag(eta.row(i + 1) * (-delta * delta / 2)))` to `t.dt` (the latter for `i + 1 < MATSCS_ETA`); `k` rounds left, the next
one is `i`; `e i` is `diag(eta.row(i))`. -/
def etaLoopM (N : Nat) (coeff : Nat → M2 A) (e : Nat → A) (delta : K) : (k : Nat) → (i : Nat) → T A → T A
  | 0, _, t => t
  | k + 1, i, t =>
    let m := coeff i
    let t1 : T A := ⟨m2Add t.t (m2Smul m (e i)),
      if i + 1 < N then m2Add t.dt (m2Smul m ((-delta * delta / 2) • e (i + 1))) else t.dt⟩
    etaLoopM N coeff e delta k (i + 1) t1

/-- `calculateTFromVEd` before the change of basis — matscs/sector.cpp:70-86; `VEd` is `diag(VEd)`, the potential at the matrix'
mean value minus the energy, times `delta`. -/
def bodyM (N : Nat) (coeff : Nat → M2 A) (e : Nat → A) (VEd : A) (delta : K) : T A :=
  let t : T A := ⟨⟨0, 0, e 1 * VEd, 0⟩, ⟨0, 0, -delta • e 1 - (delta * delta / 2) • (e 2 * VEd), 0⟩⟩
  etaLoopM N coeff e delta N 0 t

/-- `MATSCS_ETA_delta`, `MATSCS_HMAX_delta`, `MATSCS_ETA_h`, `MATSCS_N` — formula_constants.h:9-12. -/
def etaDelta : Nat := 5
def hmaxDelta : Nat := 10
def etaH : Nat := 6
def matscsN : Nat := 9

end ops

section mat
variable {K : Type} [Field K] [CCmp K] {n : Nat}

/-- `n × n` matrices -/
abbrev Mat (n : Nat) (K : Type) := Matrix (Fin n) (Fin n) K

/-- What `calculateT` reads of a sector: `h`, `vs` (in the eigenbasis), `diagonalize`, and through them the tables `t_coeff`,
`t_coeff_h` (matscs.h:75-86). -/
structure MSec (n : Nat) (K : Type) where
  h : K
  vs : Nat → Mat n K
  Q : Mat n K

/-- `kroneckerProduct(I, diagonalize) * t * kroneckerProduct(I, diagonalize.transpose())` — matscs/sector.cpp:88-91. -/
def conjM (Q : Mat n K) (m : M2 (Mat n K)) : M2 (Mat n K) :=
  ⟨Q * m.a * Q.transpose, Q * m.b * Q.transpose, Q * m.c * Q.transpose, Q * m.d * Q.transpose⟩

/-- `calculateTFromVEd<Scalar, use_h>` — matscs/sector.cpp:62-93. `VEd j` is entry `j` of the array; `eta N Z i` is
`calculateEta<Scalar, N>(Z)[i]`, applied to every entry (calculateEta.h:71-79). -/
def calcFromVEd (q : MTerm → K) (eta : Nat → K → Nat → K) (s : MSec n K) (delta : K) (VEd : Fin n → K) (useH : Bool) : T (Mat n K) :=
  let N := if useH then etaH else etaDelta
  let e : Nat → Mat n K := fun i => Matrix.diagonal (fun j => eta N (VEd j * delta) i)
  let coeff : Nat → M2 (Mat n K) := fun i =>
    if useH then coeffH q s.vs s.h i else hornerM (coeffD q s.vs s.h i) delta hmaxDelta
  let t := bodyM N coeff e (Matrix.diagonal VEd) delta
  ⟨conjM s.Q t.t, conjM s.Q t.dt⟩

/-- the identity `T<Scalar, Dynamic>(n)` — y.h:139-153 -/
def oneM : T (Mat n K) := ⟨⟨1, 0, 0, 1⟩, ⟨0, 0, 0, 0⟩⟩

/-- `(vs[0].diagonal().array() - E) * delta` — matscs/sector.cpp:104, 113. -/
def vedOf (s : MSec n K) (E delta : K) : Fin n → K := fun j => (s.vs 0 j j - E) * delta

/-- `Sector::calculateT(E, delta, use_h)` — matscs/sector.cpp:95-105 — with the length `eps` up to which lengths count as equal as a
parameter. `calculateT(E)` is `calculateTFromVEd<true>(h)` (sector.cpp:107-114). -/
def calculateTM (eps : K) (q : MTerm → K) (eta : Nat → K → Nat → K) (s : MSec n K) (E delta : K) (useH : Bool) : T (Mat n K) :=
  if CCmp.le (Eta.absK delta) eps then oneM
  else if useH && CCmp.le (Eta.absK (delta - s.h)) eps then calcFromVEd q eta s s.h (vedOf s E s.h) true
  else calcFromVEd q eta s delta (vedOf s E delta) false

/-- the `2n × 2n` matrices of a `T` -/
def tnOf (t : T (Mat n K)) : Matscs.Tn n K :=
  ⟨Matrix.fromBlocks t.t.a t.t.b t.t.c t.t.d, Matrix.fromBlocks t.dt.a t.dt.b t.dt.c t.dt.d⟩

/-- `Sector::Sector(vs, min, max, direction)` — matscs/sector.cpp:22-37: `c k` are the Legendre coefficients, `Q` the eigenvectors of
`c 0` as returned by `SelfAdjointEigenSolver`. -/
def mkMSec (c : Nat → Mat n K) (Q : Mat n K) (s : Mesh.Sec K) : MSec n K where
  h := s.max - s.min
  vs k := (if s.dir = .backward ∧ k % 2 = 1 then (-1 : K) else 1) • (Q.transpose * c k * Q)
  Q := Q

/-- `legendre::getCoefficients<MATSCS_N, Scalar, MatrixXs>(V, min, max)` — matscs/sector.cpp:17, legendre.h:38-69: every operation is
linear in the samples, so the matrix of coefficients has the coefficients of the entries. -/
def coeffsM (V : K → Mat n K) (s : Mesh.Sec K) (k : Nat) : Mat n K :=
  Matrix.of (fun i j => Legendre.getCoefficients matscsN (fun x => V x i j) s.min s.max k)

/-- A constructed sector with its transfer matrices — matscs/sector.cpp:15-118. -/
def sectorM (eps : K) (q : MTerm → K) (eta : Nat → K → Nat → K) (c : Nat → Mat n K) (Q : Mat n K) (s : Mesh.Sec K) : Matscs.CSec n K where
  toSec := s
  h := s.max - s.min
  tr E δ useH := tnOf (calculateTM eps q eta (mkMSec c Q s) E δ useH)

/-- The problem on a mesh: `vs s` are the coefficients of sector `s`, `Q s` its eigenvectors — matscs.h:36-58 with a given mesh. -/
def problemM (eps : K) (q : MTerm → K) (eta : Nat → K → Nat → K) (vs : Mesh.Sec K → Nat → Mat n K) (Q : Mesh.Sec K → Mat n K)
    (secs : List (Mesh.Sec K)) (xmin xmax : K) : Matscs.CProb n K :=
  ⟨secs.map (fun s => sectorM eps q eta (vs s) (Q s) s), xmin, xmax⟩

/-- `Sector::error` — matscs/sector.cpp:298-307: the largest entry of the difference of the two full-step matrices at `VEd = 0`
(the NaN branch is `none` in the mesh model's error functions). -/
def errorMat (q : MTerm → K) (eta : Nat → K → Nat → K) (s : MSec n K) : Matrix (Fin n ⊕ Fin n) (Fin n ⊕ Fin n) K :=
  (tnOf (calcFromVEd q eta s s.h (fun _ => 0) true)).t - (tnOf (calcFromVEd q eta s s.h (fun _ => 0) false)).t

end mat
end Verif.MFormulas
