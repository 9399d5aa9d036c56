import Mathlib.Algebra.Order.Group.Abs
import Verif.Model.Range

/-! # `CIndexing<T>` (`RedshiftLibrary/RedshiftLibrary/common/indexing.h`) -/

namespace Amazed
variable {α : Type*} [LinearOrder α]

/-- `CIndexing::getIndex` (indexing.h:59-67). -/
def getIndex (l : List α) (z : α) : Res Nat :=
  let i := l.findIdx (fun x => x == z)
  if i = l.length then .throw .INTERNAL_ERROR else .ok i

/-- `CIndexing::getClosestLowerIndex` (indexing.h:71-84): `none` is the return value `false` with
`i_min = undefIdx`; `front()` of an empty vector is undefined. -/
def getClosestLowerIndex (l : List α) (v : α) : Res (Option Nat) :=
  match l[0]? with
  | none => .ub
  | some front =>
    if v < front then .ok none
    else
      match l[lowerBound l v]? with
      | none => (fun i => some i) <$> Range.decIdx (lowerBound l v)
      | some x =>
        if x ≠ v then (fun i => some i) <$> Range.decIdx (lowerBound l v)
        else .ok (some (lowerBound l v))

/-- `CIndexing::getCloserIndex` (indexing.h:87-105). -/
def getCloserIndex [AddCommGroup α] (l : List α) (v : α) : Res Nat :=
  let it := lowerBound l v
  match l[it]? with
  | none => Range.decIdx it
  | some x =>
    if it ≠ 0 then
      match l[it - 1]? with
      | none => .ub
      | some y => if |x - v| > |y - v| then .ok (it - 1) else .ok it
    else .ok it

/-- `CIndexing::getClosestUpperIndex` (indexing.h:108-119); `back()` of an empty vector is
undefined. -/
def getClosestUpperIndex (l : List α) (v : α) : Res (Option Nat) :=
  match l[l.length - 1]? with
  | none => .ub
  | some back => if v > back then .ok none else .ok (some (lowerBound l v))

end Amazed
