import Mathlib.Algebra.Order.Floor.Ring
import Mathlib.Algebra.Order.Field.Basic
import Mathlib.Data.Rat.Floor
import Mathlib.Analysis.SpecialFunctions.Log.Basic
import Mathlib.Tactic.Linarith
import Mathlib.Tactic.FieldSimp
import Mathlib.Tactic.Ring
import Mathlib.Tactic.Positivity
import Verif.Model.Range

/-!
# `CRange<Float64>`: grids (`RedshiftLibrary/RedshiftLibrary/common/range.h`)

Linear grids are over any linearly ordered field with a floor (`ℚ`, `ℝ`), logarithmic grids over
`ℝ`. Simplification: IEEE rounding and the `Int32` range of `count` are not modelled.
-/

namespace Amazed

section Linear
variable {K : Type*} [Field K] [LinearOrder K] [FloorRing K]

/-- C++ conversion from floating point to integer: truncation toward zero. -/
def truncZ (x : K) : ℤ := if 0 ≤ x then ⌊x⌋ else ⌈x⌉

/-- `std::vector<T> v(count)` followed by a loop assigning `v[i] = f i`: a negative `count`
becomes a huge unsigned size and `std::length_error` is thrown. -/
def mkVec {β : Type*} (count : ℤ) (f : Nat → β) : Res (List β) :=
  if count < 0 then .throw .STD_LENGTH_ERROR else .ok ((List.range count.toNat).map f)

namespace Range

/-- `CRange::GetLength` (range.h:124). -/
def length (r : Range K) : K := r.e - r.b

/-- `CRange::SpreadOver_backward` (range.h:132-143). -/
def spreadOverBackward (r : Range K) (delta : K) : Res (List K) :=
  if r.isEmpty ∨ delta = 0 ∨ r.length < delta then .ok [r.e]
  else
    let count := truncZ (r.length / delta + 1)
    mkVec count (fun i => r.e - delta * ((count - 1 - (i : ℤ) : ℤ) : K))

/-- `CRange::SpreadOver` (range.h:145-159). -/
def spreadOver (r : Range K) (delta : K) (backward : Bool) : Res (List K) :=
  if backward then r.spreadOverBackward delta
  else if r.isEmpty ∨ delta = 0 ∨ r.length < delta then .ok [r.b]
  else
    let count := truncZ (r.length / delta + 1)
    mkVec count (fun i => r.b + delta * (i : K))

/-- `ret.front() = max(ret.front(), m_Begin); ret.back() = min(ret.back(), m_End)`
(range.h:169-170, 234-235, 254-255); undefined on an empty vector. -/
def clipEnds (r : Range K) (v : List K) : Res (List K) :=
  if v.length = 0 then .ub
  else .ok ((v.modify 0 (fun x => max x r.b)).modify (v.length - 1) (fun x => min x r.e))

/-- The widened range used by the `...Epsilon` functions (range.h:165-167). -/
def widen (r : Range K) (backward : Bool) (eps : K) : Range K :=
  if backward then ⟨r.b + -eps, r.e + 0⟩ else ⟨r.b + 0, r.e + eps⟩

/-- `CRange::SpreadOverEpsilon` (range.h:161-172). -/
def spreadOverEps (r : Range K) (delta : K) (backward : Bool) (eps : K) : Res (List K) := do
  let v ← (r.widen backward eps).spreadOver delta backward
  r.clipEnds v

/-- `vect.insert(end(vect), begin(vect_part2) + 1, end(vect_part2))` (range.h:285-287);
undefined if `vect_part2` is empty. -/
def appendTail (left right : List K) : Res (List K) :=
  match right with
  | [] => .ub
  | _ :: t => .ok (left ++ t)

/-- `CRange::spanCenteredWindow` (range.h:273-288), linear sampling, with the default `epsilon`
as a parameter. -/
def spanCenteredLin (r : Range K) (center delta eps : K) : Res (List K) := do
  let left ← (⟨r.b, center⟩ : Range K).spreadOverEps delta true eps
  let right ← (⟨center, r.e⟩ : Range K).spreadOverEps delta false eps
  appendTail left right

end Range
end Linear

namespace Range

/-- `CRange::isSameSign` (range.h:126-128). -/
def isSameSign {K : Type*} [Field K] [LinearOrder K] (r : Range K) (offset : K) : Prop :=
  (r.b + offset) * (r.e + offset) ≥ 0

open Classical in
/-- The number of points of the logarithmic grids (range.h:186-187, 215-216). `log` of zero or of a
negative number gives `-inf` or NaN, and its conversion to `Int32` is undefined. -/
noncomputable def logCount (r : Range ℝ) (delta offset : ℝ) : Res ℤ :=
  if r.b + offset ≤ 0 ∨ r.e + offset ≤ 0 then .ub
  else .ok (truncZ ((Real.log (r.e + offset) - Real.log (r.b + offset)) / delta + 1))

open Classical in
/-- `CRange::SpreadOverLog_backward` (range.h:174-195). The running product `x *= edelta` from the
end is written as a power. -/
noncomputable def spreadOverLogBackward (r : Range ℝ) (delta offset : ℝ) : Res (List ℝ) :=
  if ¬ r.isSameSign offset then .throw .INTERNAL_ERROR
  else if r.isEmpty ∨ delta = 0 ∨
      r.length < (r.b + offset) * Real.exp delta - (r.b + offset) then .ok [r.e]
  else do
    let count ← r.logCount delta offset
    mkVec count (fun i => (r.e + offset) * Real.exp (-delta) ^ (count.toNat - 1 - i) - offset)

open Classical in
/-- `CRange::SpreadOverLog` (range.h:197-223). The running product `x *= edelta` is written as a
power. -/
noncomputable def spreadOverLog (r : Range ℝ) (delta offset : ℝ) (backward : Bool) :
    Res (List ℝ) :=
  if ¬ r.isSameSign offset then .throw .INTERNAL_ERROR
  else if backward then r.spreadOverLogBackward delta offset
  else if r.isEmpty ∨ delta = 0 ∨
      r.length < (r.b + offset) * Real.exp delta - (r.b + offset) then .ok [r.b]
  else do
    let count ← r.logCount delta offset
    mkVec count (fun i => (r.b + offset) * Real.exp delta ^ i - offset)

/-- `CRange::SpreadOverLogEpsilon` (range.h:225-237); `SpreadOverLogZplusOneEpsilon`
(range.h:246-257) is the case `offset = 1`. -/
noncomputable def spreadOverLogEps (r : Range ℝ) (delta offset : ℝ) (backward : Bool) (eps : ℝ) :
    Res (List ℝ) := do
  let v ← (r.widen backward eps).spreadOverLog delta offset backward
  r.clipEnds v

/-- `CRange::spanCenteredWindow` (range.h:273-288), logarithmic sampling of `1+z`. -/
noncomputable def spanCenteredLog (r : Range ℝ) (center delta eps : ℝ) : Res (List ℝ) := do
  let left ← (⟨r.b, center⟩ : Range ℝ).spreadOverLogEps delta 1 true eps
  let right ← (⟨center, r.e⟩ : Range ℝ).spreadOverLogEps delta 1 false eps
  appendTail left right

end Range
end Amazed
