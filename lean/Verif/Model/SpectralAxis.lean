import Mathlib.Algebra.Order.Field.Basic
import Mathlib.Analysis.SpecialFunctions.Log.Basic
import Verif.Model.Range
import Verif.Model.Loop

/-! # Spectral axis (`src/lib/spectrum/axis.cpp`, `spectrum/axis.h`, `src/lib/spectrum/spectralaxis.cpp`,
`spectrum/spectralaxis.h`)

Samples are elements of a linearly ordered field, so NaN, infinities and rounding are not represented. -/

namespace Amazed

/-- `CSpectrumAxis::maskVector` (axis.cpp:78-92). Mask values are compared with `1.`. -/
def maskVector {K α : Type} [One K] [DecidableEq K] (mask : List K) (v : List α) : Res (List α) :=
  if mask.length ≠ v.length then .throw .INTERNAL_ERROR
  else .ok (go mask v)
where
  /-- The loop (axis.cpp:87-90): the sizes are equal, so `inputVector[i]` is in bounds. -/
  go : List K → List α → List α
    | m :: ms, x :: xs => if m = 1 then x :: go ms xs else go ms xs
    | _, _ => []

/-- `CSpectrumSpectralAxis`: the samples (axis.h:86) and the two cached answers `m_isSorted`,
`m_isLogSampled` (spectralaxis.h:138-139), `none` being `indeterminate`. -/
structure SAxis (K : Type) where
  samples : List K
  sorted : Option Bool
  logS : Option Bool
deriving DecidableEq, Repr

namespace SAxis

section
variable {K : Type} [Field K] [LinearOrder K]

/-- A new axis (spectralaxis.cpp:53-95 without air-vacuum conversion). -/
def ofList (l : List K) : SAxis K := ⟨l, none, none⟩

/-- `resetAxisProperties` (spectralaxis.cpp:534-538). -/
def reset (a : SAxis K) : SAxis K := { a with sorted := none, logS := none }

/-- `std::is_sorted`. -/
def stdIsSorted : List K → Bool
  | x :: y :: l => !decide (y < x) && stdIsSorted (y :: l)
  | _ => true

/-- `std::adjacent_find(begin, end) == end`. -/
def noAdjacentEqual : List K → Bool
  | x :: y :: l => !decide (x = y) && noAdjacentEqual (y :: l)
  | _ => true

/-- `isSorted` (spectralaxis.cpp:516-533): the answer and the updated cache. -/
def isSorted (a : SAxis K) : Bool × SAxis K :=
  match a.sorted with
  | some b => (b, a)
  | none =>
    let b := stdIsSorted a.samples && noAdjacentEqual a.samples
    (b, { a with sorted := some b })

/-- The update of the cached sortedness by `operator*=` and `operator/=` (spectralaxis.cpp:102-105,
110-113), after the samples were scaled; `n` is the number of samples. -/
def scaleCache (op : K) (n : Nat) (s : Option Bool) : Option Bool :=
  let s1 := if op < 0 then (match s with | some true => some false | some false => none | none => none) else s
  if op = 0 then some (decide (n < 2)) else s1

/-- `operator*=` (spectralaxis.cpp:100-107). -/
def mul (a : SAxis K) (op : K) : SAxis K :=
  { a with samples := a.samples.map (· * op), sorted := scaleCache op a.samples.length a.sorted }

/-- `operator/=` (spectralaxis.cpp:108-115). Division by zero gives non finite samples, which are not
represented: reported as `ub`. -/
def div (a : SAxis K) (op : K) : Res (SAxis K) :=
  if op = 0 then .ub
  else .ok { a with samples := a.samples.map (· / op), sorted := scaleCache op a.samples.length a.sorted }

/-- `MaskAxis` (spectralaxis.cpp:116-124). -/
def mask (a : SAxis K) (m : List K) : Res (SAxis K) :=
  maskVector m a.samples >>= fun l =>
  .ok ⟨l, if l.length < 2 then some true else a.sorted, none⟩

/-- `SetSize` (spectralaxis.cpp:126-135, axis.cpp:62): `resize` pads with zeros. -/
def setSize (a : SAxis K) (n : Nat) : SAxis K :=
  let l := a.samples.take n ++ List.replicate (n - a.samples.length) 0
  if n < 2 then { a with samples := l, sorted := some true }
  else if a.samples.length < n then ⟨l, none, none⟩
  else { a with samples := l }

/-- `extract` (spectralaxis.h:142-149, axis.h:123-129): samples `i … j`, undefined if they do not exist. -/
def extract (a : SAxis K) (i j : Nat) : Res (SAxis K) :=
  if a.samples = [] then .ok { a with samples := [] }
  else if i ≤ j + 1 ∧ j < a.samples.length then
    .ok { a with samples := (a.samples.drop i).take (j + 1 - i) }
  else .ub

/-- `ApplyOffset` (spectralaxis.cpp:167-174). -/
def applyOffset (a : SAxis K) (c : K) : SAxis K :=
  { a with samples := a.samples.map (· + c), logS := if c = 0 then some false else a.logS }

/-- `axis[i] = v` through the non-const `operator[]` (axis.h:91-94). -/
def write (a : SAxis K) (i : Nat) (v : K) : Res (SAxis K) :=
  if i < a.samples.length then .ok ⟨a.samples.set i v, none, none⟩ else .ub

/-- `setSamplesVector` (axis.h:106-109). -/
def assign (_a : SAxis K) (l : List K) : SAxis K := ⟨l, none, none⟩

/-- `clear` (axis.cpp:63-66). -/
def clear (_a : SAxis K) : SAxis K := ⟨[], none, none⟩

/-- Directions of a shift (spectralaxis.h:64), and any other value of the enumeration. -/
inductive ShiftDir where
  | forward
  | backward
  | other
deriving DecidableEq, Repr

/-- `ShiftByWaveLength(origin, offset, direction)` (spectralaxis.cpp:148-165). -/
def shift (origin : SAxis K) (c : K) (d : ShiftDir) : Res (SAxis K) :=
  if c < 0 then .throw .INTERNAL_ERROR
  else match d with
    | .other => .throw .INTERNAL_ERROR
    | .forward => if c = 0 then .ok origin else .ok (origin.mul c)
    | .backward => if c = 0 then .ok origin else origin.div c

/-- The operations of the public interface that change an axis or its caches. `raw l` is a change of the
samples to `l` through the reference returned by the non-const `GetSamplesVector` (axis.h:115), which
does not reset the caches. -/
inductive Op (K : Type) where
  | mul (c : K)
  | div (c : K)
  | mask (m : List K)
  | setSize (n : Nat)
  | extract (i j : Nat)
  | offset (c : K)
  | write (i : Nat) (v : K)
  | assign (l : List K)
  | clear
  | shift (c : K) (d : ShiftDir)
  | askSorted
  | raw (l : List K)

/-- One operation; an operation that throws leaves the axis as it was in the code, here the history
stops. -/
def step (a : SAxis K) : Op K → Res (SAxis K)
  | .mul c => .ok (a.mul c)
  | .div c => a.div c
  | .mask m => a.mask m
  | .setSize n => .ok (a.setSize n)
  | .extract i j => a.extract i j
  | .offset c => .ok (a.applyOffset c)
  | .write i v => a.write i v
  | .assign l => .ok (a.assign l)
  | .clear => .ok a.clear
  | .shift c d => a.shift c d
  | .askSorted => .ok a.isSorted.2
  | .raw l => .ok { a with samples := l }

/-- A history of operations. -/
def run (a : SAxis K) : List (Op K) → Res (SAxis K)
  | [] => .ok a
  | o :: os => a.step o >>= fun b => b.run os

/-! ## Queries -/

/-- `GetLambdaRange` (spectralaxis.cpp:223-227). -/
def lambdaRange (l : List K) : Range K :=
  if h : l.length < 2 then ⟨0, 0⟩ else ⟨l[0], l[l.length - 1]⟩

/-- `GetMask` (spectralaxis.cpp:232-247): the mask values. -/
def getMask (l : List K) (r : Range K) : List Nat :=
  l.map (fun x => if r.b ≤ x ∧ x ≤ r.e then 1 else 0)

/-- Loop of `IntersectMaskAndComputeOverlapFraction` (spectralaxis.cpp:258-269): `(selfRate, otherRate)`.
`omask[i]` is read only for samples in range, unchecked. -/
def overlapRates (r : Range K) : List K → List Nat → Nat × Nat → Res (Nat × Nat)
  | [], _, acc => .ok acc
  | x :: xs, ms, (s, o) =>
    if r.b ≤ x ∧ x ≤ r.e then
      match ms with
      | m :: ms' => overlapRates r xs ms' (s + 1, if m ≠ 0 then o + 1 else o)
      | [] => .ub
    else overlapRates r xs ms.tail (s, o)

/-- `IntersectMaskAndComputeOverlapFraction` (spectralaxis.cpp:252-275). -/
def overlapFraction (l : List K) (r : Range K) (omask : List Nat) : Res K :=
  overlapRates r l omask (0, 0) >>= fun (s, o) => if s = 0 then .ok 0 else .ok ((o : K) / (s : K))

/-- `ClampLambdaRange` (spectralaxis.cpp:280-309). -/
def clampLambdaRange (l : List K) (r : Range K) : Res (Range K) :=
  let eff := lambdaRange l
  if r.isEmpty then .throw .INVALID_WAVELENGTH_RANGE
  else if eff.isEmpty then .throw .INVALID_SPECTRUM_WAVELENGTH
  else
    let start := if r.b < eff.b then eff.b else r.b
    let stop := if r.e > eff.e then eff.e else r.e
    if stop - start ≤ 0 then .throw .INVALID_WAVELENGTH_RANGE else .ok ⟨start, stop⟩

/-- `GetIndexAtWaveLength` (spectralaxis.cpp:326-340); undefined on an empty axis. -/
def indexAt (l : List K) (w : K) : Res Nat :=
  match l[0]?, l[l.length - 1]? with
  | some f, some b =>
    if w ≤ f then .ok 0 else if w ≥ b then .ok (l.length - 1) else .ok (lowerBound l w)
  | _, _ => .ub

/-- `GetIndexesAtWaveLengthRange` (spectralaxis.cpp:314-322). -/
def indexesAt (l : List K) (r : Range K) : Res (Nat × Nat) :=
  indexAt l r.b >>= fun i => indexAt l r.e >>= fun j => .ok (i, j)

/-- `GetResolution` (spectralaxis.cpp:179-201). -/
def resolution (l : List K) (w : K) : Res K :=
  if l.length < 2 then .ok 0
  else if 0 ≤ w then
    indexAt l w >>= fun i =>
    let i1 := if i > l.length - 1 then l.length - 1 else i
    let i2 := if i1 < 1 then 1 else i1
    Res.at_ l i2 >>= fun x => Res.at_ l (i2 - 1) >>= fun y => .ok (x - y)
  else Res.at_ l 1 >>= fun x => Res.at_ l 0 >>= fun y => .ok (x - y)

/-- Sum of the loop of `GetMeanResolution` (spectralaxis.cpp:209-212) over `i = b … b + n - 1`. -/
def resSum (l : List K) (b : Nat) (n : Nat) : Res K :=
  Res.foldN (fun i s => Res.at_ l (i + 1) >>= fun x => Res.at_ l i >>= fun y => .ok (s + (x - y))) b n 0

/-- `GetMeanResolution(index_range)` (spectralaxis.cpp:203-219), the range being `[b, e]` with `b ≤ e`. -/
def meanResolution (l : List K) (b e : Nat) : Res K :=
  if e - b < 1 then .ok 0
  else resSum l b (e - b) >>= fun s => .ok (s / ((e - b : Nat) : K))

/-- The downward loop `for (i = e; i >= b; i -= ssratio) mask[i] = 1` of `GetSubSamplingMask`
(spectralaxis.cpp:441-444). `fuel` bounds the number of iterations; a ratio of 0 never ends, a negative
ratio leaves the vector (both outcomes are `ub`). -/
def subMaskLoop (ss b : Int) : Nat → Int → List Nat → Res (List Nat)
  | 0, i, m => if i < b then .ok m else .ub
  | fuel + 1, i, m =>
    if i < b then .ok m
    else if i < 0 ∨ (m.length : Int) ≤ i then .ub
    else subMaskLoop ss b fuel (i - ss) (m.set i.toNat 1)

/-- `GetSubSamplingMask(ssratio, range)` (spectralaxis.cpp:424-447); `logSampled` is the answer of
`IsLogSampled`. The bound `GetEnd() > size() - 1` is an unsigned comparison: a negative end is huge, and
so is `size() - 1` of an empty axis. -/
def subSamplingMask (n : Nat) (logSampled : Bool) (ss b e : Int) : Res (List Nat) :=
  if logSampled = false then .throw .INTERNAL_ERROR
  else if b < 0 then .throw .INTERNAL_ERROR
  else if n ≠ 0 ∧ (e < 0 ∨ e > (n : Int) - 1) then .throw .INTERNAL_ERROR
  else if ss = 1 then .ok (List.replicate n 1)
  else subMaskLoop ss b n e (List.replicate n 0)

end

/-! ## Logarithmic sampling -/

open Classical in
/-- Does one step deviate by more than 10% (spectralaxis.cpp:357-361)? With a null reference step the
quotient is infinite (refused) unless the step is null too (NaN, accepted). -/
noncomputable def badStep (s0 s : ℝ) : Bool :=
  if s0 = 0 then decide (s ≠ 0) else decide (|(s - s0) / s0| > 1 / 10)

open Classical in
/-- Loop of `CheckLoglambdaSampling` (spectralaxis.cpp:353-370) from the sample `x`; a ratio that is not
positive has no (finite) logarithm and is not represented (`ub`). -/
noncomputable def logLoop (s0 : ℝ) : ℝ → List ℝ → Res Bool
  | _, [] => .ok true
  | x, y :: l =>
    if 0 < y / x then
      if badStep s0 (Real.log (y / x)) then .ok false else logLoop s0 y l
    else .ub

open Classical in
/-- `CheckLoglambdaSampling` (spectralaxis.cpp:345-381): undefined with fewer than two samples. -/
noncomputable def checkLog (a : SAxis ℝ) : Res (Bool × SAxis ℝ) :=
  match a.samples with
  | x :: y :: l =>
    if 0 < y / x then
      logLoop (Real.log (y / x)) x (y :: l) >>= fun b => .ok (b, { a with logS := some b })
    else .ub
  | _ => .ub

/-- `IsLogSampled()` (spectralaxis.cpp:402-407). -/
noncomputable def isLogSampled (a : SAxis ℝ) : Res (Bool × SAxis ℝ) :=
  match a.logS with
  | some b => .ok (b, a)
  | none => a.checkLog

end SAxis
end Amazed
