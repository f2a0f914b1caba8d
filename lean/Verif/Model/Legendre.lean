import Verif.Basic.Scalar
import Verif.Model.LegendreData

/-!
# Model of `matslise/util/legendre.h` and `matslise/util/legendre_data.h`
-/
namespace Verif.Legendre

/-- The table `polynomials<Scalar>`: row `i` holds the coefficients of the `i`-th polynomial, lowest power
first — legendre.h:17-35. -/
def polynomials : List (List Int) := [
  [1, 0, 0, 0, 0, 0, 0, 0, 0, 0, 0, 0, 0, 0, 0, 0],
  [-1, 2, 0, 0, 0, 0, 0, 0, 0, 0, 0, 0, 0, 0, 0, 0],
  [1, -6, 6, 0, 0, 0, 0, 0, 0, 0, 0, 0, 0, 0, 0, 0],
  [-1, 12, -30, 20, 0, 0, 0, 0, 0, 0, 0, 0, 0, 0, 0, 0],
  [1, -20, 90, -140, 70, 0, 0, 0, 0, 0, 0, 0, 0, 0, 0, 0],
  [-1, 30, -210, 560, -630, 252, 0, 0, 0, 0, 0, 0, 0, 0, 0, 0],
  [1, -42, 420, -1680, 3150, -2772, 924, 0, 0, 0, 0, 0, 0, 0, 0, 0],
  [-1, 56, -756, 4200, -11550, 16632, -12012, 3432, 0, 0, 0, 0, 0, 0, 0, 0],
  [1, -72, 1260, -9240, 34650, -72072, 84084, -51480, 12870, 0, 0, 0, 0, 0, 0, 0],
  [-1, 90, -1980, 18480, -90090, 252252, -420420, 411840, -218790, 48620, 0, 0, 0, 0, 0, 0],
  [1, -110, 2970, -34320, 210210, -756756, 1681680, -2333760, 1969110, -923780, 184756, 0, 0, 0, 0, 0],
  [-1, 132, -4290, 60060, -450450, 2018016, -5717712, 10501920, -12471030, 9237800, -3879876, 705432, 0, 0, 0, 0],
  [1, -156, 6006, -100100, 900900, -4900896, 17153136, -39907296, 62355150, -64664600, 42678636, -16224936, 2704156, 0, 0, 0],
  [-1, 182, -8190, 160160, -1701700, 11027016, -46558512, 133024320, -261891630, 355655300, -327202876, 194699232, -67603900, 10400600, 0, 0],
  [1, -210, 10920, -247520, 3063060, -23279256, 116396280, -399072960, 960269310, -1636014380, 1963217256, -1622493600, 878850700, -280816200, 40116600, 0],
  [-1, 240, -14280, 371280, -5290740, 46558512, -271591320, 1097450640, -3155170590, 6544057520, -9816086280, 10546208400, -7909656300, 3931426800, -1163381400, 155117520]]

/-- entry `(i, j)` of the table -/
def poly (i j : Nat) : Int := (polynomials.getD i []).getD j 0

/-- node `j` of the `k`-point rule — legendre_data.h:2-19 -/
def node (k j : Nat) : ℚ := ((nodesRaw k).getD j 0 : Int) / 10 ^ 24
/-- weight `(i, j)` of the `k`-point rule — legendre_data.h:2-19 -/
def weight (k i j : Nat) : ℚ := (((weightsRaw k).getD i []).getD j 0 : Int) / 10 ^ 24

section ops
variable {K : Type} [Add K] [Sub K] [Mul K] [Div K] [Zero K] [One K] [CCmp K]

/-- `h((b - a) / 2)` — legendre.h:48. -/
def halfWidth (a b : K) : K := (b - a) / CCmp.lit 2

/-- The point at which the constructor evaluates the function for `fs[j]`:
`(a + b) / 2 + nodes<Scalar, k>[j] * h` — legendre.h:48. -/
def samplePoint (k : Nat) (a b : K) (j : Nat) : K := (a + b) / CCmp.lit 2 + CCmp.lit (node k j) * halfWidth a b

/-- `k = n + n % 2` — legendre.h:40. -/
def kOf (n : Nat) : Nat := n + n % 2

/-- The loop `for (j = 1; j < rows; ++j) result += weights(i, j) * fs[j]` — legendre.h:53-54; `r` rounds
left, the next one is `j`. -/
def integrateLoop (k i : Nat) (fs : Nat → K) : Nat → Nat → K → K
  | 0, _, acc => acc
  | r + 1, j, acc => integrateLoop k i fs r (j + 1) (acc + CCmp.lit (weight k i j) * fs j)

/-- `integrate<false>(i)` — legendre.h:50-58. -/
def integrate (k : Nat) (fs : Nat → K) (i : Nat) : K :=
  integrateLoop k i fs (k - 1) 1 (CCmp.lit (weight k i 0) * fs 0)

/-- The value of `H` in round `i` of the loops at legendre.h:63-67 and 78-83. -/
def hPow (x : K) : Nat → K
  | 0 => 1
  | i + 1 => hPow x i * x

/-- `Legendre<Scalar, n>{f, a, b}.getCoefficients()[i]` — legendre.h:45-69 (the cache only avoids
recomputation). -/
def getCoefficients (n : Nat) (f : K → K) (a b : K) (i : Nat) : K :=
  integrate (kOf n) (fun j => f (samplePoint (kOf n) a b j)) i / hPow (halfWidth a b) i

/-- `polynomial[j] += (H * polynomials(i, j)) * coeffs[i]` for `j = 0 … i` — legendre.h:79-81 (the updates
touch different entries, so the inner loop is written as one update). -/
def addRow (H c : K) (i : Nat) (p : Nat → K) : Nat → K :=
  fun j => if j ≤ i then p j + (H * CCmp.lit (poly i j)) * c else p j

/-- The loop over `i` of `asPolynomial` — legendre.h:77-83; `r` rounds left. -/
def polyLoop (h2 : K) (coeffs : Nat → K) : Nat → Nat → K → (Nat → K) → (Nat → K)
  | 0, _, _, p => p
  | r + 1, i, H, p => polyLoop h2 coeffs r (i + 1) (H * h2) (addRow H (coeffs i) i p)

/-- The coefficients of `Legendre<Scalar, n>{f, a, b}.asPolynomial()` — legendre.h:71-85. -/
def asPolynomial (n : Nat) (f : K → K) (a b : K) : Nat → K :=
  polyLoop (CCmp.lit 2 * halfWidth a b) (getCoefficients n f a b) n 0 1 (fun _ => 0)

end ops
end Verif.Legendre
