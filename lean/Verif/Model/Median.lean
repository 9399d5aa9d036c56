import Mathlib.Algebra.Field.Defs
import Mathlib.Order.Basic
import Mathlib.Data.List.Basic
import Verif.Basic

/-! # `CMedian<T>` (`RedshiftLibrary/RedshiftLibrary/common/median.hpp`) -/

namespace Amazed
namespace Median
variable {α : Type*} [LinearOrder α]

/-- `SORT_PAIR(p[i], p[j])` (median.hpp:40-44): swap the two cells if `p[i] > p[j]`. -/
def sortPair (p : List α) (ij : Nat × Nat) : List α :=
  match p[ij.1]?, p[ij.2]? with
  | some a, some b => if a > b then (p.set ij.1 b).set ij.2 a else p
  | _, _ => p

/-- A sequence of `SORT_PAIR`s followed by `return p[m]`. -/
def network (pairs : List (Nat × Nat)) (m : Nat) (p : List α) : Res α :=
  Res.at_ (pairs.foldl sortPair p) m

/-- The pairs of `Opt3Find` (median.hpp:163-165). -/
def pairs3 : List (Nat × Nat) := [(0,1), (1,2), (0,1)]

/-- The pairs of `Opt5Find` (median.hpp:174-180). -/
def pairs5 : List (Nat × Nat) := [(0,1), (3,4), (0,3), (1,4), (1,2), (2,3), (1,2)]

/-- The pairs of `Opt7Find` (median.hpp:189-201). -/
def pairs7 : List (Nat × Nat) :=
  [(0,5), (0,3), (1,6), (2,4), (0,1), (3,5), (2,6), (2,3), (3,6), (4,5), (1,4), (1,3), (3,4)]

/-- The pairs of `Opt9Find` (median.hpp:210-228). -/
def pairs9 : List (Nat × Nat) :=
  [(1,2), (4,5), (7,8), (0,1), (3,4), (6,7), (1,2), (4,5), (7,8), (0,3), (5,8), (4,7), (3,6), (1,4),
   (2,5), (4,7), (4,2), (6,4), (4,2)]

/-- `while (a[i] < x) i++` (median.hpp:134-136). -/
def scanUp (a : List α) (x : α) (i : Nat) : Nat → Res Int
  | 0 => .ub
  | fuel + 1 =>
    match a[i]? with
    | none => .ub
    | some v => if v < x then scanUp a x (i + 1) fuel else .ok i

/-- `while (x < a[j]) j--` (median.hpp:137-139); the argument is `j + 1`, so that 0 stands for
`j = -1`, which is out of bounds. -/
def scanDown (a : List α) (x : α) : Nat → Res Int
  | 0 => .ub
  | j + 1 =>
    match a[j]? with
    | none => .ub
    | some v => if x < v then scanDown a x j else .ok j

/-- `std::swap(a[i], a[j])` (median.hpp:141). -/
def swap (a : List α) (i j : Nat) : Res (List α) :=
  match a[i]?, a[j]? with
  | some v, some w => .ok ((a.set i w).set j v)
  | _, _ => .ub

/-- The `do ... while (i <= j)` loop (median.hpp:133-145). Running out of `fuel` stands for a loop
that does not end and is reported as `ub`; the theorems show it does not happen. -/
def partition (x : α) (a : List α) (i j : Int) : Nat → Res (List α × Int × Int)
  | 0 => .ub
  | fuel + 1 =>
    if i < 0 ∨ j < -1 then .ub
    else
    match scanUp a x i.toNat (a.length + 1), scanDown a x (j + 1).toNat with
    | .ok i', .ok j' =>
      if i' ≤ j' then
        match swap a i'.toNat j'.toNat with
        | .ok a' =>
          if i' + 1 ≤ j' - 1 then partition x a' (i' + 1) (j' - 1) fuel
          else .ok (a', i' + 1, j' - 1)
        | _ => .ub
      else .ok (a, i', j')
    | _, _ => .ub

/-- The `while (l < m)` loop (median.hpp:129-153) followed by `return a[k]` (median.hpp:155). -/
def select (k : Nat) (a : List α) (l m : Int) : Nat → Res α
  | 0 => if l < m then .ub else Res.at_ a k
  | fuel + 1 =>
    if l < m then
      match Res.at_ a k with
      | .ok x =>
        match partition x a l m (a.length + 1) with
        | .ok (a', i, j) =>
          select k a' (if j < k then i else l) (if (k : Int) < i then j else m) fuel
        | _ => .ub
      | _ => .ub
    else Res.at_ a k

/-- `CMedian::FastFind` (median.hpp:115-156). -/
def fastFind (a : List α) : Res α :=
  let n := a.length
  let k : Int := if n % 2 = 1 then (n / 2 : Nat) else (n / 2 : Nat) - 1
  if k < 0 then .ub else select k.toNat a 0 ((n : Int) - 1) n

/-- `CMedian::BeersFind` (median.hpp:46-63). `std::sort` is a merge sort; the sorted vector of a linear
order is unique. -/
def beersFind [Field α] (a : List α) : Res α :=
  let xwork := a.mergeSort
  let n2 := a.length / 2
  if 2 * n2 = a.length then
    if n2 = 0 then .ub
    else do
      let u ← Res.at_ xwork (n2 - 1)
      let v ← Res.at_ xwork n2
      pure ((u + v) / 2)
  else Res.at_ xwork n2

/-- `MEDIAN_FAST_OR_BEERS_THRESHOLD` (`common/defaults.h`). -/
def fastThreshold : Nat := 1000

/-- `CMedian::Find` (median.hpp:65-104): dispatch on the size. -/
def find [Field α] (a : List α) : Res α :=
  match a.length with
  | 0 => Res.at_ a 0
  | 1 => Res.at_ a 0
  | 3 => network pairs3 1 a
  | 5 => network pairs5 2 a
  | 7 => network pairs7 3 a
  | 9 => network pairs9 4 a
  | n => if n > fastThreshold then fastFind a else beersFind a

end Median
end Amazed
