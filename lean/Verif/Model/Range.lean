import Mathlib.Order.MinMax
import Verif.Model.Std

/-! # `CRange<T>`: comparison part (`RedshiftLibrary/RedshiftLibrary/common/range.h`) -/

namespace Amazed

variable {α : Type*} [LinearOrder α]

/-- `CRange<T>` (range.h:57-62, 436-438): the two bounds. -/
@[ext] structure Range (α : Type*) where
  b : α
  e : α
deriving DecidableEq, Repr

namespace Range

/-- `CRange::GetIsEmpty` (range.h:70). -/
def isEmpty (r : Range α) : Bool := r.b == r.e

/-- `CRange::Clamp` (range.h:130). -/
def clamp (r : Range α) (v : α) : α := if v < r.b then r.b else if r.e < v then r.e else v

/-- `CRange::HasIntersection` (range.h:380-383). -/
def hasIntersection (r s : Range α) : Bool := decide (max r.b s.b ≤ min r.e s.e)

/-- `CRange::Intersect(a, b, intersect)` (range.h:390-399): the returned flag and the final
value of the output argument, whose value before the call is `out`. `IntersectWith`
(range.h:388) is the case `out = r`. -/
def intersect (r s out : Range α) : Bool × Range α :=
  if hasIntersection r s then (true, ⟨max r.b s.b, min r.e s.e⟩) else (false, out)

/-- `CRange::getUnion(a, b, ab)` (range.h:401-408); `unionWith` (range.h:409) is the case
`out = r`. -/
def getUnion (r s out : Range α) : Bool × Range α :=
  if hasIntersection r s then (true, ⟨min r.b s.b, max r.e s.e⟩) else (false, out)

/-- `CRange::operator<` (range.h:110-114). -/
def lt (r s : Range α) : Bool := if r.b = s.b then decide (r.e < s.e) else decide (r.b < s.b)

/-- Loop of `joinIntersections` (range.h:423-432): `cur` is `current`, the rest of the sorted
ranges follows; the result is the list pushed to `result` from here on. -/
def joinGo (cur : Range α) : List (Range α) → List (Range α)
  | [] => [cur]
  | r :: rs =>
    if cur.e ≥ r.b then joinGo ⟨cur.b, max cur.e r.e⟩ rs else cur :: joinGo r rs

/-- `CRange::joinIntersections` (range.h:411-434). `std::sort` with `operator<` is a merge sort
here; `operator<` is a strict total order, so the sorted vector is unique. -/
def joinIntersections (rs : List (Range α)) : Res (List (Range α)) :=
  match rs with
  | [] => .throw .EMPTY_LIST
  | [r] => .ok [r]
  | _ =>
    match rs.mergeSort (fun r s => !(lt s r)) with
    | [] => .ub
    | c :: cs => .ok (joinGo c cs)

/-- Decrementing a vector iterator at index `n`; decrementing `begin()` is undefined. -/
def decIdx (n : Nat) : Res Nat := if n = 0 then .ub else .ok (n - 1)

/-- Computation of `it_max` in `CRange::getClosedIntervalIndices` (range.h:363-369). -/
def closedMaxIdx (r : Range α) (l : List α) : Res Nat :=
  match l[lowerBound l r.e]? with
  | none => decIdx (lowerBound l r.e)
  | some y => if y > r.e then decIdx (lowerBound l r.e) else .ok (lowerBound l r.e)

/-- `CRange::getClosedIntervalIndices` (range.h:350-378); the result is `(i_min, i_max)`.
Decrementing `begin()` is `ub`. -/
def closedIdx (r : Range α) (l : List α) : Res (Nat × Nat) :=
  match l[0]?, l[l.length - 1]? with
  | some front, some back =>
    if r.e < front ∨ r.b > back then .throw .CRANGE_VECTBORDERS_OUTSIDERANGE
    else
      let iMin := lowerBound l r.b
      match closedMaxIdx r l with
      | .ok iMax => if iMin > iMax then .throw .CRANGE_NO_INTERSECTION else .ok (iMin, iMax)
      | .throw er => .throw er
      | .ub => .ub
  | _, _ => .throw .EMPTY_LIST

/-- `CRange::getEnclosingIntervalIndices(ordered_values, i_min, i_max)` (range.h:324-346).
Dereferencing `end()` and decrementing `begin()` are `ub`. -/
def enclosingIdx (r : Range α) (l : List α) : Res (Nat × Nat) :=
  match l[0]?, l[l.length - 1]? with
  | some front, some back =>
    if r.b < front ∨ r.e > back then .throw .CRANGE_VECTBORDERS_OUTSIDERANGE
    else
      let itMin := lowerBound l r.b
      let itMax := lowerBound l r.e
      match l[itMin]? with
      | none => .ub
      | some y =>
        if y > r.b then (if itMin = 0 then .ub else .ok (itMin - 1, itMax))
        else .ok (itMin, itMax)
  | _, _ => .throw .EMPTY_LIST

/-- `CRange::getEnclosingIntervalIndices(ordered_values, value, i_min, i_max)`
(range.h:292-322). -/
def enclosingIdxAt (r : Range α) (l : List α) (v : α) : Res (Nat × Nat) :=
  if v < r.b ∨ v > r.e then .throw .CRANGE_VALUE_OUTSIDERANGE
  else match l[0]?, l[l.length - 1]? with
  | some front, some back =>
    if r.b < front ∨ r.e > back then .throw .CRANGE_VECTBORDERS_OUTSIDERANGE
    else
      let it := lowerBound l v
      let itMin := lowerBound (l.take it) r.b
      let itMax := it + lowerBound (l.drop it) r.e
      match l[itMin]? with
      | none => .ub
      | some y =>
        if y > r.b then (if itMin = 0 then .ub else .ok (itMin - 1, itMax))
        else .ok (itMin, itMax)
  | _, _ => .throw .EMPTY_LIST

end Range
end Amazed
