import Verif.Model.Legendre
import Verif.Model.Poly
import Verif.Model.YT
import Verif.Model.Eta

/-!
# Model of `matslise/liouville/liouville.cpp`

The user's functions `p`, `q`, `w` and the square root are parameters.
-/
namespace Verif.Liouville
open Verif.Poly Verif.YT

/-- `DEGREE` — liouville.h:15. -/
def DEGREE : Nat := 8

/-- `LiouvilleTransformation::Piece` — liouville.h:21-40. -/
structure Piece (K : Type) where
  rmin : K
  rmax : K
  xmin : K
  xmax : K
  r2x : Poly K DEGREE
  p : Poly K DEGREE
  w : Poly K DEGREE
  pwx : Poly K (DEGREE + 2)

section ops
variable {K : Type} [Add K] [Sub K] [Mul K] [Div K] [Neg K] [Zero K] [One K] [NatCast K] [CCmp K]

/-- The loop of `x2r_impl` — liouville.cpp:12-20. Fuel counts rounds. -/
def x2rLoop (f : K → K) (x : K) : (fuel : Nat) → (low high : K) → Outcome K
  | fuel, low, high =>
    if CCmp.lt (CCmp.lit (1 / 10 ^ 15)) (high - low) then
      match fuel with
      | 0 => .timeout
      | fuel + 1 =>
        let mid := (high + low) / CCmp.lit 2
        if CCmp.lt x (f mid) then x2rLoop f x fuel low mid else x2rLoop f x fuel mid high
    else .ok ((low + high) / CCmp.lit 2)

/-- `x2r_impl(r2x, x)` — liouville.cpp:9-22, as a value: the loop is cut after 100 rounds (it needs 50,
theorem C46). -/
def x2rImpl (r2x : Poly K DEGREE) (x : K) : K :=
  match x2rLoop (eval r2x) x 100 0 1 with
  | .ok v => v
  | _ => 0

/-- `Piece::Piece(lt, r)` — liouville.cpp:24-49. -/
def mkPiece (sqrt P W : K → K) (rmin rmax : K) : Piece K :=
  let p : Poly K DEGREE := ⟨Legendre.asPolynomial (DEGREE + 1) P rmin rmax⟩
  let w : Poly K DEGREE := ⟨Legendre.asPolynomial (DEGREE + 1) W rmin rmax⟩
  let dens : Poly K (DEGREE - 1) := ⟨Legendre.asPolynomial DEGREE (fun r => sqrt (eval w r / eval p r)) 0 1⟩
  let r2x : Poly K DEGREE := mulScalar (integral dens) (rmax - rmin)
  let xmax := eval r2x 1
  let pwx : Poly K (DEGREE + 2) := ⟨Legendre.asPolynomial (DEGREE + 3)
    (fun x => let r := x2rImpl r2x x; eval p r * eval w r) 0 xmax⟩
  ⟨rmin, rmax, 0, xmax, r2x, p, w, pwx⟩

/-- `setXMin(piece, xMin)` — liouville.cpp:51-59. -/
def setXMin (pc : Piece K) (xMin : K) : Piece K :=
  if CCmp.eq xMin pc.xmin then pc
  else
    let dx := xMin - pc.xmin
    { pc with r2x := addScalar pc.r2x dx, xmax := pc.xmax + dx, xmin := xMin }

/-- `relError` — liouville.cpp:61-67. -/
def relError (exact estimate : K) : K :=
  let err := exact - estimate
  let err := if CCmp.lt (CCmp.lit 1) exact || CCmp.lt exact (CCmp.lit (-1)) then err / exact else err
  Eta.absK err

/-- `pieceError` — liouville.cpp:69-72. -/
def pieceError (f : Piece K → K) (full left right : Piece K) : K := relError (f left + f right) (f full)

/-- `normalizeR`, `normalizeX` — liouville.h:31-37. -/
def Piece.normR (pc : Piece K) (r : K) : K := (r - pc.rmin) / (pc.rmax - pc.rmin)
def Piece.normX (pc : Piece K) (x : K) : K := (x - pc.xmin) / (pc.xmax - pc.xmin)

/-- `Piece::x2r(x_)`, `x_` normalised to `[0, 1]` — liouville.cpp:124-127. -/
def Piece.x2r (pc : Piece K) (x : K) : K :=
  pc.rmin + (pc.rmax - pc.rmin) * x2rImpl pc.r2x (pc.xmin + x * (pc.xmax - pc.xmin))

/-- The acceptance condition — liouville.cpp:94-108. -/
def accept (next left right : Piece K) : Bool :=
  CCmp.lt (next.xmax - next.xmin) (CCmp.lit (1 / 10 ^ 8)) ||
  (CCmp.lt (relError right.xmax next.xmax) (CCmp.lit (1 / 10 ^ 14)) &&
   CCmp.lt (pieceError (fun p => integralAt p.r2x 1 * (p.rmax - p.rmin)) next left right) (CCmp.lit (1 / 10 ^ 14)) &&
   CCmp.lt (pieceError (fun p => Legendre.integrate 12 (fun j => p.x2r (Legendre.samplePoint 12 0 1 j)) 0 *
      Legendre.halfWidth 0 1 * (p.xmax - p.xmin)) next left right) (CCmp.lit (1 / 10 ^ 14)) &&
   CCmp.lt (pieceError (fun p => integralAt p.pwx 1 * (p.xmax - p.xmin)) next left right) (CCmp.lit (1 / 10 ^ 14)) &&
   CCmp.lt (pieceError (fun p => eval p.pwx 1 - eval p.pwx 0) next left right) (CCmp.lit (1 / 10 ^ 12)))

/-- The loop of `constructPiecewise` — liouville.cpp:83-119. `toDo` is the stack with its top first,
`pieces` the finished ones; `mk` is the piece constructor. Fuel counts rounds. -/
def constructLoop (mk : K → K → Piece K) (acc : Piece K → Piece K → Piece K → Bool) :
    (fuel : Nat) → (toDo pieces : List (Piece K)) → (xMin : K) → Outcome (List (Piece K))
  | _, [], pieces, _ => .ok pieces
  | 0, _ :: _, _, _ => .timeout
  | fuel + 1, top :: toDo, pieces, xMin =>
    let next := setXMin top xMin
    let rMid := (next.rmin + next.rmax) / CCmp.lit 2
    let left := setXMin (mk next.rmin rMid) xMin
    let right := setXMin (mk rMid next.rmax) left.xmax
    if acc next left right then constructLoop mk acc fuel toDo (pieces ++ [left, right]) right.xmax
    else constructLoop mk acc fuel (left :: right :: toDo) pieces xMin

/-- `constructPiecewise(lt)` — liouville.cpp:74-122. -/
def constructPiecewise (mk : K → K → Piece K) (acc : Piece K → Piece K → Piece K → Bool) (fuel : Nat) (rmin rmax : K) :
    Outcome (List (Piece K)) :=
  constructLoop mk acc fuel [mk rmin rmax] [] 0

/-- `std::lower_bound` as libstdc++ implements it, on positions: the first position in
`[first, first + len)` for which the predicate fails (for partitioned ranges). -/
def lowerBound (pred : Nat → Bool) (first len : Nat) : Nat :=
  if h : len = 0 then first
  else
    let half := len / 2
    if pred (first + half) then lowerBound pred (first + half + 1) (len - half - 1)
    else lowerBound pred first half
termination_by len
decreasing_by all_goals omega

/-- `findPiece(lt, value, f)` with `hi` the upper end of the chosen domain — liouville.cpp:135-149. The
assertion at line 146 is C47. -/
def findPiece (pieces : List (Piece K)) (hi : Piece K → K) (value : K) : Outcome (Piece K) :=
  let i := lowerBound (fun i => match pieces[i]? with | some pc => CCmp.le (hi pc) value | none => false) 0 pieces.length
  match pieces[if i = pieces.length then i - 1 else i]? with
  | some pc => .ok pc
  | none => .ub "findPiece on an empty vector"

/-- `r2x(r)` — liouville.cpp:151-155. -/
def r2x (pieces : List (Piece K)) (r : K) : Outcome K := do
  let pc ← findPiece pieces Piece.rmax r
  return eval pc.r2x (pc.normR r)

/-- `x2r(x)` — liouville.cpp:157-161. -/
def x2r (pieces : List (Piece K)) (x : K) : Outcome K := do
  let pc ← findPiece pieces Piece.xmax x
  return pc.x2r (pc.normX x)

/-- The body of `V(x)` once the piece is known — liouville.cpp:171-181. -/
def pieceV (q : K → K) (pc : Piece K) (x : K) : K :=
  let nx := pc.normX x
  let r := pc.x2r nx
  let nr := pc.normR r
  let h := pc.xmax - pc.xmin
  let pw := eval pc.pwx nx
  let pwdx := derivativeAt 1 pc.pwx nx / h
  let pwddx := derivativeAt 2 pc.pwx nx / (h * h)
  let sq := pwdx / (CCmp.lit 4 * pw)
  q r / eval pc.w nr - CCmp.lit 3 * (sq * sq) + pwddx / (CCmp.lit 4 * pw)

/-- `V(x)` — liouville.cpp:168-182. -/
def V (q : K → K) (pieces : List (Piece K)) (x : K) : Outcome K := do
  let pc ← findPiece pieces Piece.xmax x
  return pieceV q pc x

/-- The values `xdr`, `sigma`, `dsigma` both transformations compute from `p`, `w` and their derivatives —
liouville.cpp:194-196, 220-222. -/
def xdrOf (sqrt : K → K) (p w : K) : K := sqrt (w / p)
def sigmaOf (sqrt : K → K) (p w : K) : K := CCmp.lit 1 / sqrt (p * xdrOf sqrt p w)
def dsigmaOf (sqrt : K → K) (p w dp dw : K) : K := CCmp.lit (-1 / 4) * sigmaOf sqrt p w * (dp / p + dw / w)

/-- The assignments of `z2y` — liouville.cpp:198-205. -/
def z2yCore (sigma dsigma xdr : K) (z : Y K) : Y K :=
  let y0 := z.y * (CCmp.lit 1 / sigma)
  let yE := z.yE * (CCmp.lit 1 / sigma)
  let dy := z.dy - dsigma * y0
  let dyE := z.dyE - dsigma * yE
  ⟨y0, dy * (CCmp.lit 1 / (sigma * xdr)), yE, dyE * (CCmp.lit 1 / (sigma * xdr))⟩

/-- The assignments of `y2z` — liouville.cpp:224-231. -/
def y2zCore (sigma dsigma xdr : K) (y : Y K) : Y K :=
  ⟨y.y * sigma, y.dy * dsigma + sigma * xdr * y.y, y.yE * sigma, y.dyE * dsigma + sigma * xdr * y.yE⟩

/-- `z2y` on a piece at the normalised coordinate `nr` — liouville.cpp:188-205. -/
def pieceZ2Y (sqrt : K → K) (pc : Piece K) (nr : K) (z : Y K) : Y K :=
  let p := eval pc.p nr
  let w := eval pc.w nr
  let h := pc.rmax - pc.rmin
  let dp := derivativeAt 1 pc.p nr / h
  let dw := derivativeAt 1 pc.w nr / h
  z2yCore (sigmaOf sqrt p w) (dsigmaOf sqrt p w dp dw) (xdrOf sqrt p w) z

/-- `y2z` on a piece at the normalised coordinate `nr` — liouville.cpp:214-231. -/
def pieceY2Z (sqrt : K → K) (pc : Piece K) (nr : K) (y : Y K) : Y K :=
  let p := eval pc.p nr
  let w := eval pc.w nr
  let h := pc.rmax - pc.rmin
  let dp := derivativeAt 1 pc.p nr / h
  let dw := derivativeAt 1 pc.w nr / h
  y2zCore (sigmaOf sqrt p w) (dsigmaOf sqrt p w dp dw) (xdrOf sqrt p w) y

/-- `z2y(r, z)` — liouville.cpp:184-208. -/
def z2y (sqrt : K → K) (pieces : List (Piece K)) (r : K) (z : Y K) : Outcome (Y K) := do
  let pc ← findPiece pieces Piece.rmax r
  return pieceZ2Y sqrt pc (pc.normR r) z

/-- `y2z(x, y)` — liouville.cpp:210-234. -/
def y2z (sqrt : K → K) (pieces : List (Piece K)) (x : K) (y : Y K) : Outcome (Y K) := do
  let pc ← findPiece pieces Piece.xmax x
  return pieceY2Z sqrt pc (pc.normR (pc.x2r (pc.normX x))) y

/-- `SLEigenfunction::operator()(r)`: `ef` is the eigenfunction of the transformed problem — sturm_liouville.cpp:21-26.
The energy derivatives of the local `y` are zero (`Y<Scalar>()`, y.h:27-29). Result: value and derivative. -/
def slEigenfunction (sqrt : K → K) (pieces : List (Piece K)) (ef : K → Outcome (K × K)) (r : K) : Outcome (K × K) := do
  let x ← r2x pieces r
  let yd ← ef x
  let z ← y2z sqrt pieces x ⟨yd.1, yd.2, 0, 0⟩
  return (z.y, z.dy)

/-- The array overload — sturm_liouville.cpp:28-42: all `r2x` first, one array call, then `y2z` row by row. -/
def slEigenfunctionArray (sqrt : K → K) (pieces : List (Piece K)) (ef : List K → Outcome (List (K × K))) (rs : List K) :
    Outcome (List (K × K)) := do
  let xs ← rs.mapM (fun r => r2x pieces r)
  let zs ← ef xs
  (xs.zip zs).mapM (fun p => do
    let z ← y2z sqrt pieces p.1 ⟨p.2.1, p.2.2, 0, 0⟩
    return (z.y, z.dy))

/-- `SturmLiouville::eigenvaluesByIndex` — liouville.h:84-91, with `solve` the method of the inner `Matslise`. -/
def slEigenvaluesByIndex {R : Type} (sqrt : K → K) (pieces : List (Piece K)) (rmin rmax : K)
    (solve : Int → Int → Y K → Y K → Outcome R) (Imin Imax : Int) (left right : Y K) : Outcome R := do
  let l ← z2y sqrt pieces rmin left
  let r ← z2y sqrt pieces rmax right
  solve Imin Imax l r

/-- `SturmLiouville::eigenvalueError` — liouville.h:97-104, with `err` the method of the inner `Matslise`. -/
def slEigenvalueError (sqrt : K → K) (pieces : List (Piece K)) (rmin rmax : K)
    (err : K → Y K → Y K → Int → Outcome K) (E : K) (left right : Y K) (index : Int) : Outcome K := do
  let l ← z2y sqrt pieces rmin left
  let r ← z2y sqrt pieces rmax right
  err E l r index

/-- `SturmLiouville::eigenpairsByIndex` — sturm_liouville.cpp:45-68: `solve` is the method of the inner `Matslise`; every eigenfunction is wrapped in an `SLEigenfunction`. -/
def slEigenpairsByIndex (sqrt : K → K) (pieces : List (Piece K)) (rmin rmax : K)
    (solve : Int → Int → Y K → Y K → Outcome (List (Int × K × (K → Outcome (K × K))))) (Imin Imax : Int) (left right : Y K) :
    Outcome (List (Int × K × (K → Outcome (K × K)))) := do
  let l ← z2y sqrt pieces rmin left
  let r ← z2y sqrt pieces rmax right
  let pairs ← solve Imin Imax l r
  return pairs.map (fun t => (t.1, t.2.1, slEigenfunction sqrt pieces t.2.2))

end ops
end Verif.Liouville
