import Verif.Basic
import Verif.Model.Loop
import Mathlib.Algebra.Order.Field.Basic

set_option linter.unusedVariables false

/-! # Amplitudes of line model elements

`RedshiftLibrary/RedshiftLibrary/linemodel/elementparam.h`, `src/lib/linemodel/elementparam.cpp`,
`src/lib/linemodel/element.cpp` (68-104) and `src/lib/linemodel/lmeltlistvector.cpp` (search of a line, amplitudes).

Numbers are elements of an ordered field, `none` is a NaN; rounding and infinities are not modelled (a division of a
number other than zero by zero is reported as undefined). -/

namespace Amazed
namespace Amp

variable {K : Type} [Field K] [LinearOrder K] [IsStrictOrderedRing K]

/-- `a > b` on `Float64`. -/
def vGt (a b : Option K) : Bool := match a, b with
  | some x, some y => decide (x > y)
  | _, _ => false

/-- `a <= b` on `Float64`. -/
def vLe (a b : Option K) : Bool := match a, b with
  | some x, some y => decide (x ≤ y)
  | _, _ => false

/-- `a == b` on `Float64`. -/
def vEq (a b : Option K) : Bool := match a, b with
  | some x, some y => decide (x = y)
  | _, _ => false

/-- `std::min(a, b)` on `Float64`: `b < a ? b : a`. -/
def vMin (a b : Option K) : Option K := if vGt a b then b else a

/-- `std::max(a, b)` on `Float64`: `a < b ? b : a`. -/
def vMax (a b : Option K) : Option K := if vGt b a then b else a

/-- Product of `Float64`. -/
def vMul (a b : Option K) : Option K := match a, b with
  | some x, some y => some (x * y)
  | _, _ => none

/-- Sum of `Float64`. -/
def vAdd (a b : Option K) : Option K := match a, b with
  | some x, some y => some (x + y)
  | _, _ => none

/-- Quotient of `Float64`: `0/0` is a NaN, `x/0` (an infinity) is not modelled. -/
def vDiv (a b : Option K) : Res (Option K) := match a, b with
  | some x, some y => if y = 0 then (if x = 0 then .ok none else .ub) else .ok (some (x / y))
  | _, _ => .ok none

/-- `std::abs` on `Float64`. -/
def vAbs (a : Option K) : Option K := a.map abs

/-- `CLine::EType` (line.h:62-66). -/
inductive LType where
  | absorption
  | emission
  | all
deriving DecidableEq

/-- `CLine::EForce` (line.h:70-74). -/
inductive Force where
  | weak
  | strong
  | all
deriving DecidableEq

/-- The parts of a `CLine` read here. -/
structure LineInfo where
  name : String
  force : Force
deriving DecidableEq

/-- `TLineModelElementParam` (elementparam.h:63-94) together with the flags of the element of the current spectrum
(`CLineModelElement::m_OutsideLambdaRange`, `m_OutsideLambdaRangeList`) and the flags over all spectra
(`CLMEltListVector::m_globalOutsideLambdaRange`, `m_globalOutsideLambdaRangeList`). `m_SignFactors` is the same number
for all the lines, 1 for an emission element and -1 for the others (elementparam.cpp:89-90). -/
structure Elt (K : Type) where
  lines : List LineInfo
  type : LType
  isEmission : Bool
  nominal : List K
  fa : List (Option K)
  fastd : List (Option K)
  absLimit : K
  outside : Bool
  outsideLine : List Bool
  gOutside : Bool
  gOutsideLine : List Bool
deriving DecidableEq

/-- The absorption cap of `setFittedAmplitude` (elementparam.h:165-169). -/
def capAbs (e : Elt K) (x : Option K) : Option K :=
  if e.isEmission = false ∧ e.absLimit > 0 ∧ vGt x (some e.absLimit) = true then some e.absLimit else x

/-- `setAmplitudes` (elementparam.h:173-194) with `setFittedAmplitude` (elementparam.h:160-171), called with the flags
over all spectra by `CLMEltListVector::SetElementAmplitude` (lmeltlistvector.cpp:257-262). The writes are in bounds, the
amplitude vectors having the size of the line vector from the constructor on. -/
def setAmplitude (e : Elt K) (A AStd : Option K) : Res (Elt K) :=
  if A = none ∨ e.gOutside = true then
    .ok { e with fa := List.replicate e.lines.length none, fastd := List.replicate e.lines.length none }
  else
    Res.tab (fun i => Res.at_ e.gOutsideLine i >>= fun o =>
      if o then .ok (none, none)
      else Res.at_ e.nominal i >>= fun n => .ok (capAbs e (vMul A (some n)), vMul AStd (some n))) e.lines.length >>= fun l =>
    .ok { e with fa := l.map Prod.fst, fastd := l.map Prod.snd }

/-- `LimitFittedAmplitude` (elementparam.cpp:244-260): the new element and whether it was limited. -/
def limit (e : Elt K) (i : Nat) (lim : Option K) : Res (Elt K × Bool) :=
  Res.at_ e.fa i >>= fun a =>
  if vGt a lim then
    Res.at_ e.nominal i >>= fun n =>
    vDiv (vMax (some 0) lim) (some n) >>= fun ref =>
    Res.tab (fun k => Res.at_ e.nominal k >>= fun nk => .ok (vMul (some nk) ref)) e.lines.length >>= fun fa =>
    .ok ({ e with fa := fa }, true)
  else .ok (e, false)

/-- Loop of `GetElementAmplitude` (elementparam.h:215-224) from index `i`. -/
def elementAmplitudeFrom (e : Elt K) (i : Nat) : Nat → Res (Option K)
  | 0 => .ok none
  | n + 1 => Res.at_ e.nominal i >>= fun nom => Res.at_ e.fa i >>= fun a =>
    match a with
    | some x => if nom ≠ 0 then .ok (some (x / nom)) else elementAmplitudeFrom e (i + 1) n
    | none => elementAmplitudeFrom e (i + 1) n

/-- `GetElementAmplitude` (elementparam.h:215-224). -/
def elementAmplitude (e : Elt K) : Res (Option K) := elementAmplitudeFrom e 0 e.lines.length

/-- `isAllAmplitudesNull` (elementparam.cpp:123-127). -/
def allNull (e : Elt K) : Bool := !(e.fa.any fun a => vGt a (some 0))

/-- `name.find(tag) != npos`. -/
def hasSub (tag name : String) : Bool := decide (tag.toList <:+: name.toList)

/-- `getLineIndex(tag)` (element.cpp:89-104): the first line whose name contains the tag. -/
def lineIndex (e : Elt K) (tag : String) : Option Nat :=
  e.lines.findIdx? fun l => hasSub tag l.name

/-- The condition of `findElementIndex` (lmeltlistvector.cpp:226-231). -/
def eltMatches (tag : String) (t : LType) (e : Elt K) : Bool :=
  (lineIndex e tag).isSome && (decide (t = .all) || decide (e.type = t))

/-- `findElementIndex(tag, type)` (lmeltlistvector.cpp:221-237): element index and line index in it. -/
def findElementIndex (es : List (Elt K)) (tag : String) (t : LType) : Option (Nat × Nat) :=
  match es.findIdx? (eltMatches tag t) with
  | none => none
  | some i => match es[i]? with
    | none => none
    | some e => (lineIndex e tag).map fun k => (i, k)

end Amp
end Amazed
