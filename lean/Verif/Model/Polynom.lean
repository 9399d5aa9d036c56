import Mathlib.Algebra.Order.Field.Basic
import Verif.Basic

/-! # Second degree polynomials (`src/lib/common/polynom.cpp`, `common/polynom.h`)

Numbers are elements of a field; a division by zero is reported as `ub`. The initial NaN coefficients are not
represented: objects are considered once their coefficients are set. -/

namespace Amazed
namespace Polynom

variable {K : Type} [Field K] [DecidableEq K]

/-- `TPolynomCoeffs` (polynom.h:46-63). -/
structure Poly (K : Type) where
  a0 : K
  a1 : K
  a2 : K
deriving DecidableEq, Repr

/-- The constructor from a vector (polynom.cpp:46-55). -/
def ofList (l : List K) : Res (Poly K) :=
  if l.length ≤ 2 then .throw .INTERNAL_ERROR
  else Res.at_ l 0 >>= fun a => Res.at_ l 1 >>= fun b => Res.at_ l 2 >>= fun c => .ok ⟨a, b, c⟩

/-- `TPolynomCoeffs::getValue` (polynom.cpp:57-62). -/
def Poly.value (p : Poly K) (x : K) : K := p.a0 + p.a1 * x + p.a2 * x * x

/-- `TPolynomCoeffs::getValueAndGrad` (polynom.cpp:64-70): the value and the gradient. -/
def Poly.valueGrad (p : Poly K) (x : K) : K × List K := (1 * p.a0 + x * p.a1 + x * x * p.a2, [1, x, x * x])

/-- `CPolynomCoeffsNormalized` (polynom.h:65-86). -/
structure Norm (K : Type) where
  a0 : K
  a1 : K
  a2 : K
  x0red : K
  scale : K
deriving DecidableEq, Repr

/-- The constructor (polynom.h:68-69) followed by values for the three public coefficients. -/
def Norm.new (x0 scale a0 a1 a2 : K) : Res (Norm K) := if scale = 0 then .ub else .ok ⟨a0, a1, a2, -x0 / scale, scale⟩

/-- `getCoeffs` (polynom.cpp:74-79). -/
def Norm.getCoeffs (n : Norm K) : Res (Poly K) :=
  if n.scale = 0 then .ub
  else .ok ⟨n.a0 + n.a1 * n.x0red + n.a2 * n.x0red * n.x0red, (n.a1 + 2 * n.a2 * n.x0red) / n.scale, n.a2 / (n.scale * n.scale)⟩

/-- `setCoeffs` (polynom.cpp:81-86). -/
def Norm.setCoeffs (n : Norm K) (p : Poly K) : Norm K :=
  let a2 := p.a2 * n.scale * n.scale
  let a1 := p.a1 * n.scale - 2 * a2 * n.x0red
  let a0 := p.a0 - a1 * n.x0red - a2 * n.x0red * n.x0red
  { n with a0 := a0, a1 := a1, a2 := a2 }

/-- `CPolynomCoeffsNormalized::getValue` (polynom.cpp:88-94). -/
def Norm.value (n : Norm K) (x : K) : Res K :=
  if n.scale = 0 then .ub
  else
    let xred := x / n.scale + n.x0red
    .ok (n.a0 + n.a1 * xred + n.a2 * xred * xred)

/-- `CPolynomCoeffsNormalized::getValueAndGrad` (polynom.cpp:96-104). -/
def Norm.valueGrad (n : Norm K) (x : K) : Res (K × List K) :=
  if n.scale = 0 then .ub
  else
    let xred := x / n.scale + n.x0red
    .ok (1 * n.a0 + xred * n.a1 + xred * xred * n.a2, [1, xred, xred * xred])

end Polynom
end Amazed
