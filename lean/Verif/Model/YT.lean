import Verif.Basic.Outcome
import Verif.Basic.Scalar

/-!
# Model of `matslise/util/y.h` for dimension 1

`Y<Scalar, 1, cols>` acts column by column (`T * Y`, `T / Y`, `reverse` and scaling multiply every
column from the left), so the model is a single column; two-column uses (periodic problems) are two
runs of the model.
-/
namespace Verif.YT

/-- One column of `Y<Scalar, 1>`: `data = (y, y', ∂y/∂E, ∂y'/∂E)` — y.h:9-19 (`None = 0, dX = 1,
dE = 2, dXdE = 3`). -/
structure Y (K : Type) where
  y : K
  dy : K
  yE : K
  dyE : K
deriving DecidableEq, Repr

/-- A 2×2 matrix `[[a, b], [c, d]]` (`Eigen::Matrix<Scalar, 2, 2>`). -/
structure M2 (K : Type) where
  a : K
  b : K
  c : K
  d : K
deriving DecidableEq, Repr

/-- `T<Scalar, 1>`: a transfer matrix and its derivative — y.h:140-153. -/
structure T (K : Type) where
  t : M2 K
  dt : M2 K
deriving DecidableEq, Repr

section ops
variable {K : Type} [Add K] [Sub K] [Mul K] [Neg K] [Zero K] [One K]

/-- `Y::Dirichlet()` — y.h:21-25. -/
def Y.dirichlet : Y K := ⟨0, 1, 0, 0⟩
/-- `Y::Neumann()` — y.h:27-31. -/
def Y.neumann : Y K := ⟨1, 0, 0, 0⟩
/-- `Y::reverse()` — y.h:33-36. -/
def Y.reverse (y : Y K) : Y K := ⟨y.y, -y.dy, y.yE, -y.dyE⟩
/-- unary minus — y.h:67-69. -/
def Y.neg (y : Y K) : Y K := ⟨-y.y, -y.dy, -y.yE, -y.dyE⟩
/-- `operator*(Scalar)` / `operator*=(Scalar)` — y.h:100-107. -/
def Y.smul (y : Y K) (f : K) : Y K := ⟨y.y * f, y.dy * f, y.yE * f, y.dyE * f⟩
/-- columnwise sum (used only to state linearity; not a library function). -/
def Y.add (u v : Y K) : Y K := ⟨u.y + v.y, u.dy + v.dy, u.yE + v.yE, u.dyE + v.dyE⟩

/-- matrix × (y, y') -/
def M2.mulVec (m : M2 K) (u v : K) : K × K := (m.a * u + m.b * v, m.c * u + m.d * v)
/-- matrix product -/
def M2.mul (m n : M2 K) : M2 K :=
  ⟨m.a * n.a + m.b * n.c, m.a * n.b + m.b * n.d, m.c * n.a + m.d * n.c, m.c * n.b + m.d * n.d⟩
/-- determinant -/
def M2.det (m : M2 K) : K := m.a * m.d - m.b * m.c
/-- `tInv << t(1,1), -t(0,1), -t(1,0), t(0,0)` — y.h:163-165. -/
def M2.adj (m : M2 K) : M2 K := ⟨m.d, -m.b, -m.c, m.a⟩

/-- `T()` : identity and zero — y.h:145-150. -/
def T.one : T K := ⟨⟨1, 0, 0, 1⟩, ⟨0, 0, 0, 0⟩⟩

/-- `T::operator*(Y)`: `Y(t * y.y(), t * y.ydE() + dt * y.y())` — y.h:154-157. -/
def T.mul (T : T K) (y : Y K) : Y K :=
  let v := T.t.mulVec y.y y.dy
  let e1 := T.t.mulVec y.yE y.dyE
  let e2 := T.dt.mulVec y.y y.dy
  ⟨v.1, v.2, e1.1 + e2.1, e1.2 + e2.2⟩

/-- `T::operator/(Y)` for dimension 1: multiplies by the adjugates of `t` and `dt` — y.h:159-167.
(No division by the determinant.) -/
def T.div (T : T K) (y : Y K) : Y K :=
  let v := T.t.adj.mulVec y.y y.dy
  let e1 := T.t.adj.mulVec y.yE y.dyE
  let e2 := T.dt.adj.mulVec y.y y.dy
  ⟨v.1, v.2, e1.1 + e2.1, e1.2 + e2.2⟩

end ops
end Verif.YT
