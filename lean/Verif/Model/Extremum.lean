import Mathlib.Algebra.Field.Defs
import Mathlib.Order.MinMax
import Verif.Model.Range

/-! # `CExtremum` (`src/lib/extremum/extremum.cpp`)

Merit values are `Option α`: `none` is NaN, with which every comparison is false. -/

namespace Amazed
namespace Extremum
variable {α : Type} [LinearOrder α]

/-- `a < b` of two floating point values. -/
def ltv (a b : Option α) : Bool :=
  match a, b with
  | some x, some y => decide (x < y)
  | _, _ => false

/-- `a == b` of two floating point values. -/
def eqv (a b : Option α) : Bool :=
  match a, b with
  | some x, some y => decide (x = y)
  | _, _ => false

/-- First loop of `getFirstandLastnonNANElementIndices` (extremum.cpp:253-255); the last argument is
`EndIndex - BeginIndex`. -/
def skipFwd (y : List (Option α)) (b : Nat) : Nat → Res Nat
  | 0 => .ok b
  | n + 1 =>
    match y[b]? with
    | none => .ub
    | some (some _) => .ok b
    | some none => skipFwd y (b + 1) n

/-- Second loop of `getFirstandLastnonNANElementIndices` (extremum.cpp:257-259). -/
def skipBwd (y : List (Option α)) (e : Nat) : Nat → Res Nat
  | 0 => .ok e
  | n + 1 =>
    match y[e]? with
    | none => .ub
    | some (some _) => .ok e
    | some none => skipBwd y (e - 1) n

/-- `getFirstandLastnonNANElementIndices` (extremum.cpp:249-264). -/
def trimNaN (y : List (Option α)) (b e : Nat) : Res (Nat × Nat) := do
  let b' ← skipFwd y b (e - b)
  let e' ← skipBwd y e (e - b')
  if (e' : Int) - b' < 2 then .throw .INTERNAL_ERROR else pure (b', e')

/-- State of the scan: `plank`, `cnt_plk`, and the indices pushed so far (the code pushes the abscissa and
the value at these indices; here they are read at the end, in `readPeaks`). -/
structure Scan where
  plank : Bool := false
  cnt : Nat := 0
  peaks : List Nat := []
deriving DecidableEq, Repr

/-- Body of the loop at index `i` (extremum.cpp:330-365) given the values at `i - 1`, `i`, `i + 1`.
`round(cnt_plk / 2)` is an integer division. -/
def scanStep (a b c : Option α) (i : Nat) (s : Scan) : Res Scan :=
  if ltv a b && ltv c b then .ok { s with peaks := s.peaks ++ [i] }
  else if ltv a b && eqv b c then .ok { s with plank := true, cnt := s.cnt + 1 }
  else if !eqv a b then .ok s
  else if s.plank && eqv a b && ltv c b then
    if (s.cnt + 1) / 2 > i then .ub
    else .ok { plank := false, cnt := 0, peaks := s.peaks ++ [i - (s.cnt + 1) / 2] }
  else if eqv a b && ltv b c then .ok { s with plank := false, cnt := 0 }
  else .ok { s with cnt := s.cnt + 1 }

/-- The loop (extremum.cpp:329-366) from index `i`, for `n` more indices. -/
def scanLoop (y : List (Option α)) (i : Nat) (s : Scan) : Nat → Res Scan
  | 0 => .ok s
  | n + 1 =>
    match y[i - 1]?, y[i]?, y[i + 1]? with
    | some a, some b, some c =>
      match scanStep a b c i s with
      | .ok s' => scanLoop y (i + 1) s' n
      | .throw e => .throw e
      | .ub => .ub
    | _, _, _ => .ub

/-- First element (extremum.cpp:320-327). -/
def scanFirst (border : Bool) (a b : Option α) (i : Nat) : Scan :=
  if border && ltv b a then { plank := false, cnt := 0, peaks := [i] }
  else if border && eqv a b then { plank := true, cnt := 1, peaks := [] }
  else {}

/-- Last element (extremum.cpp:368-381). -/
def scanLast (border : Bool) (a b : Option α) (e : Nat) (s : Scan) : Res (List Nat) :=
  if !border then .ok s.peaks
  else if ltv b a then .ok s.peaks
  else
    let cnt := s.cnt + (if s.plank then 1 else 0)
    if cnt / 2 > e then .ub else .ok (s.peaks ++ [e - cnt / 2])

/-- `FindAllPeaks` (extremum.cpp:275-382) on the values after `applySign`: the indices of the peaks. -/
def findAllPeaks (border : Bool) (y : List (Option α)) (b e : Nat) : Res (List Nat) := do
  let (b, e) ← trimNaN y b e
  let y0 ← Res.at_ y b
  let y1 ← Res.at_ y (b + 1)
  let s ← scanLoop y (b + 1) (scanFirst border y0 y1 b) (e - (b + 1))
  let z0 ← Res.at_ y (e - 1)
  let z1 ← Res.at_ y e
  scanLast border z0 z1 e s

/-- The pushes of `xAxis[i]` and `tmpY[i]` (extremum.cpp:321-322, 331-332, 351-352, 377-378). -/
def readPeaks (x : List α) (y : List (Option α)) : List Nat → Res (List (α × Option α))
  | [] => .ok []
  | i :: is => do
    let xi ← Res.at_ x i
    let yi ← Res.at_ y i
    let r ← readPeaks x y is
    pure ((xi, yi) :: r)

section Arith
variable [Field α]

/-- `m_SignSearch * v`, with `m_SignSearch` 1 or -1 (extremum.cpp:61, 266-273). -/
def sgn (invert : Bool) (v : Option α) : Option α := if invert then v.map (fun x => -x) else v

/-- The members set by the constructor (extremum.cpp:57-63). `m_PeakSeparationActive` is
`0 < separation`. -/
structure Cfg (α : Type) where
  maxPeakCount : Int
  separation : α
  meritCut : α
  invert : Bool
  border : Bool
  xRange : Range α

/-- `Cut_Threshold` (extremum.cpp:172-200), first part: keep the peaks whose merit is within the cut of the
best one, whose index is `s0`. `none` values: the comparison is false. -/
def cutKeep (cut : α) (peaks : List (α × Option α)) (s0 : Nat) : Res (List (α × Option α)) :=
  match peaks[s0]? with
  | none => .ub
  | some best => .ok (peaks.filter (fun p =>
      match best.2, p.2 with
      | some b, some v => decide (b - v ≤ cut)
      | _, _ => false))

/-- `Cut_Threshold` (extremum.cpp:172-200) with `keepMinN = 1`, the only value used. The second part re-inserts
the best peak if nothing was kept. -/
def cutThreshold (cut : α) (peaks : List (α × Option α)) (sorted : List Nat) : Res (List (α × Option α)) :=
  if peaks.length = 0 then .throw .INTERNAL_ERROR
  else if peaks.length ≤ 1 then .ok peaks
  else do
    let s0 ← Res.at_ sorted 0
    let kept ← cutKeep cut peaks s0
    if kept.length < 1 then do
      let best ← Res.at_ peaks s0
      pure [best]
    else pure kept

/-- `for (j = i_min; j <= i_max; j++) if (j != i) peakTracking[j] = false` (extremum.cpp:239-243). -/
def clearTracking (tr : List Bool) (i iMin iMax : Nat) : List Bool :=
  tr.mapIdx (fun j t => if iMin ≤ j ∧ j ≤ iMax ∧ j ≠ i then false else t)

/-- The window around a peak (extremum.cpp:229-233). -/
def window (sep x : α) : Range α :=
  ⟨x - (x + 1) * sep / (1 + sep / 2), x + (x + 1) * sep / (1 - sep / 2)⟩

/-- The loop of `FilterOutNeighboringPeaksAndTruncate` (extremum.cpp:219-244). An exception of
`getClosedIntervalIndices` is caught and leaves `i_min = i_max = i`. -/
def filterLoop (c : Cfg α) (peaks : List (α × Option α)) :
    List Nat → List Bool → Int → List (α × Option α) → Res (List (α × Option α))
  | [], _, _, acc => .ok acc
  | i :: is, tr, nkeep, acc =>
    if nkeep = c.maxPeakCount then .ok acc
    else match tr[i]? with
      | none => .ub
      | some false => filterLoop c peaks is tr nkeep acc
      | some true =>
        match peaks[i]? with
        | none => .ub
        | some p =>
          match Range.closedIdx (window c.separation p.1) (peaks.map Prod.fst) with
          | .ub => .ub
          | .throw _ => filterLoop c peaks is tr (nkeep + 1) (acc ++ [(p.1, sgn c.invert p.2)])
          | .ok (iMin, iMax) =>
            if iMax ≥ tr.length then .ub
            else filterLoop c peaks is (clearTracking tr i iMin iMax) (nkeep + 1)
              (acc ++ [(p.1, sgn c.invert p.2)])

/-- Reading peaks through the sorted indices (extremum.cpp:208-211, 393-396). -/
def pickSorted (c : Cfg α) (peaks : List (α × Option α)) : List Nat → Res (List (α × Option α))
  | [] => .ok []
  | i :: is => do
    let p ← Res.at_ peaks i
    let r ← pickSorted c peaks is
    pure ((p.1, sgn c.invert p.2) :: r)

/-- `FilterOutNeighboringPeaksAndTruncate` (extremum.cpp:202-246) with `keepmin = 1`. Reading past the end of
the sorted indices in the first branch is `ub`. -/
def filterOut (c : Cfg α) (peaks : List (α × Option α)) (sorted : List Nat) : Res (List (α × Option α)) :=
  if peaks.length ≤ 1 then
    if sorted.length < peaks.length then .ub else pickSorted c peaks (sorted.take peaks.length)
  else filterLoop c peaks sorted (List.replicate peaks.length true) 0 []

/-- `Truncate` (extremum.cpp:388-398). -/
def truncate (c : Cfg α) (peaks : List (α × Option α)) (sorted : List Nat) : Res (List (α × Option α)) :=
  let n := (min c.maxPeakCount (peaks.length : Int)).toNat
  if sorted.length < n then .ub else pickSorted c peaks (sorted.take n)

/-- The check of two neighbouring abscissae in `assertPeakSeparation` (extremum.cpp:142-154): `full` is the
range from the first to the last. -/
def separated (sep : α) (full : Range α) (lo hi : α) : Bool :=
  let wh : Range α := ⟨hi - sep / 2 * (1 + hi), hi + sep / 2 * (1 + hi)⟩
  let wh := (Range.intersect wh full wh).2
  let wl : Range α := ⟨lo - sep / 2 * (1 + lo), lo + sep / 2 * (1 + lo)⟩
  let wl := (Range.intersect wl full wl).2
  !decide (wh.b - wl.e < 0)

/-- The loop of `assertPeakSeparation` over the sorted abscissae (extremum.cpp:141-155). -/
def sepLoop (sep : α) (full : Range α) : List α → Res Unit
  | lo :: hi :: l => if separated sep full lo hi then sepLoop sep full (hi :: l) else .throw .INTERNAL_ERROR
  | _ => .ok ()

/-- `assertPeakSeparation` (extremum.cpp:138-163). On an empty list `size() - 1` wraps around and the loop
reads out of bounds. -/
def assertSeparation (sep : α) (points : List (α × Option α)) : Res Unit :=
  let xs := (points.map Prod.fst).mergeSort
  match xs[0]?, xs[xs.length - 1]? with
  | some f, some l => sepLoop sep ⟨f, l⟩ xs
  | _, _ => .ub

/-- The merit cut, if active (extremum.cpp:120-123). -/
def cutStage (c : Cfg α) (peaks : List (α × Option α)) (sorted : List Nat) : Res (List (α × Option α)) :=
  if c.meritCut > 0 ∧ peaks.length > 1 then cutThreshold c.meritCut peaks sorted else .ok peaks

/-- First and last index of the search (extremum.cpp:92-97). -/
def searchIdx (c : Cfg α) (x : List α) : Res (Nat × Nat) :=
  if c.xRange.isEmpty then .ok (0, x.length - 1) else Range.closedIdx c.xRange x

/-- The last part of `CExtremum::Find` (extremum.cpp:116-135), once there is at least one peak. `sorter` stands for
`SortIndexes` (extremum.cpp:68-73): `std::sort` leaves the order of equal values unspecified, so the theorems hold for
every `sorter` that sorts. `std::sort` with a NaN among at least two values has undefined behaviour. -/
def select (c : Cfg α) (sorter : List (Option α) → List Nat) (peaks : List (α × Option α)) :
    Res (List (α × Option α)) :=
  if peaks.length ≥ 2 ∧ (peaks.any (fun p => p.2.isNone)) then .ub
  else do
    let cut ← cutStage c peaks (sorter (peaks.map Prod.snd))
    if c.separation > 0 then do
      let pts ← filterOut c cut (sorter (peaks.map Prod.snd))
      let _ ← assertSeparation c.separation pts
      pure pts
    else truncate c cut (sorter (peaks.map Prod.snd))

/-- `CExtremum::Find` (extremum.cpp:79-136). The warning raised when no peak is found in the second pass is not
modelled (the returned list is). -/
def find (c : Cfg α) (sorter : List (Option α) → List Nat) (x : List α) (y : List (Option α)) (firstPass : Bool) :
    Res (List (α × Option α)) :=
  if x.length = 0 then .throw .INTERNAL_ERROR
  else if x.length ≠ y.length then .throw .INTERNAL_ERROR
  else do
    let be ← searchIdx c x
    let idx ← findAllPeaks c.border (y.map (sgn c.invert)) be.1 be.2
    let peaks ← readPeaks x (y.map (sgn c.invert)) idx
    if peaks.length = 0 then
      if firstPass then .throw .PDF_PEAK_NOT_FOUND else pure []
    else select c sorter peaks

end Arith
end Extremum
end Amazed
