import Verif.Model.Median
import Verif.Model.SpectralAxis
import Verif.Model.FluxAxis
import Verif.Model.Loop
import Mathlib.Data.List.Sort
import Mathlib.Order.Interval.Finset.Defs

set_option linter.unusedVariables false

/-! # Peak detection (`RedshiftLibrary/src/lib/operator/peakdetection.cpp`)

Samples are elements of an ordered field, rounding is not modelled. A `TInt32Range` of indices is the pair of its ends.
-/

namespace Amazed
namespace Peaks

variable {K : Type} [Field K] [LinearOrder K] [IsStrictOrderedRing K]

/-- `XMad` (peakdetection.cpp:262-285), and `CLineDetection::XMadFind` (linedetection.cpp:543-568), which computes the same:
`std::sort` on a linear order has one possible result. An empty range reads `xdata[-1]`. -/
def xmad (l : List K) (median : K) : Res K :=
  let xdata := (l.map fun x => |x - median|).insertionSort (· ≤ ·)
  let n2 := l.length / 2
  if 2 * n2 = l.length then
    Res.atZ xdata ((n2 : Int) - 1) >>= fun u => Res.at_ xdata n2 >>= fun v => .ok (1 / 2 * (u + v))
  else Res.at_ xdata n2

/-- The window of a sample (peakdetection.cpp:202-205): `GetIndexAtWaveLength` is never negative, the `max(0, ·)` is kept
in the type. -/
def window (axis : List K) (win : K) (s i : Nat) : Res (Nat × Nat) :=
  Res.at_ axis i >>= fun x => SAxis.indexAt axis (x - win / 2) >>= fun start =>
  SAxis.indexAt axis (x + win / 2) >>= fun stop => .ok (start, min s stop)

/-- The samples of `[begin + start, begin + stop)`; a range that ends before it starts, or after the vector, is undefined. -/
def sub (l : List K) (start stop : Nat) : Res (List K) :=
  if stop < start ∨ l.length < stop then .ub else .ok ((l.drop start).take (stop - start))

/-- The parameters of a `CPeakDetection` (peakdetection.cpp:49-57). -/
structure Prm (K : Type) where
  win : K
  cut : K
  half : Int
  rate : Int
  offset : K

/-- Detection level of a sample, `med[i] + 0.5 * m_cut * xmad[i]` (peakdetection.cpp:207-212 and 234). -/
def level (p : Prm K) (axis flux : List K) (i : Nat) : Res K :=
  window axis p.win flux.length i >>= fun w => sub flux w.1 w.2 >>= fun l =>
  Median.find l >>= fun m => xmad l m >>= fun d => .ok (m + 1 / 2 * p.cut * (d + p.offset))

/-- The indices written to `points` (peakdetection.cpp:230-235). -/
def above (flux lev : List K) : List Nat :=
  (List.range flux.length).filter fun i => match flux[i]?, lev[i]? with
    | some f, some v => decide (v < f)
    | _, _ => false

/-- One turn of the loop on contiguous samples (peakdetection.cpp:246-259); the state is `start`, `current` and the list. -/
def runStep (points : List Nat) (i : Nat) (st : Nat × Nat × List (Nat × Nat)) : Res (Nat × Nat × List (Nat × Nat)) :=
  Res.at_ points i >>= fun p =>
    if (p : Int) - 1 = st.2.1 then .ok (st.1, p, st.2.2)
    else .ok (p, p, st.2.2 ++ [(st.1, st.2.1)])

/-- The ranges of contiguous samples (peakdetection.cpp:230 and 237-260): the vector has `s + 1` cells, those after the
`j` found indices hold 0. -/
def runs (s : Nat) (pts : List Nat) : Res (List (Nat × Nat)) :=
  if pts.length = 0 then .ok []
  else
    let points := pts ++ List.replicate (s + 1 - pts.length) 0
    Res.at_ points 0 >>= fun p0 => Res.foldN (runStep points) 1 pts.length (p0, p0, []) >>= fun st => .ok st.2.2

/-- `FindPossiblePeaks` (peakdetection.cpp:184-260). -/
def findPossiblePeaks (p : Prm K) (axis flux : List K) : Res (List (Nat × Nat)) :=
  Res.tab (level p axis flux) flux.length >>= fun lev => runs flux.length (above flux lev)

/-- The search of the maximum of `RedefineBorders` (peakdetection.cpp:152-162): value and position, -1 if no sample is
above `-1e12`. -/
def centre (smooth : List K) (r : Nat × Nat) : Res (K × Int) :=
  Res.foldN (fun i (st : K × Int) => Res.at_ smooth i >>= fun v => if st.1 < v then .ok (v, (i : Int)) else .ok st)
    r.1 (r.2 + 1 - r.1) (-(10 ^ 12), -1)

/-- The loop of `GetNewBorder` on the left side (peakdetection.cpp:122-134): arguments `new_border` and `old_border`, result
`new_border`. Running out of `fuel` is reported as `ub`. -/
def borderLeft (smooth : List K) : Nat → Int → Int → Res Int
  | 0, _, _ => .ub
  | fuel + 1, new, old => Res.atZ smooth new >>= fun a => Res.atZ smooth old >>= fun b =>
    if a ≤ b then (if new = 0 then .ok new else borderLeft smooth fuel (max 0 (new - 1)) new) else .ok new

/-- The loop of `GetNewBorder` on the right side (peakdetection.cpp:122-134). -/
def borderRight (smooth : List K) : Nat → Int → Int → Res Int
  | 0, _, _ => .ub
  | fuel + 1, new, old => Res.atZ smooth new >>= fun a => Res.atZ smooth old >>= fun b =>
    if a ≤ b then (if new = (smooth.length : Int) - 1 then .ok new else borderRight smooth fuel (max 0 (new + 1)) new)
    else .ok new

/-- The decision of `RedefineBorders` on one peak (peakdetection.cpp:164-180): is it kept. -/
def keep (smooth : List K) (r : Nat × Nat) : Res Bool :=
  centre smooth r >>= fun c =>
    let newLeft := max 0 (c.2 - 1)
    let newRight := min (smooth.length : Int) (c.2 + 1)
    if newLeft = 0 ∨ newRight = smooth.length then .ok false
    else borderLeft smooth (smooth.length + 1) newLeft c.2 >>= fun l =>
      borderRight smooth (smooth.length + 1) newRight c.2 >>= fun r' => .ok (decide (r' ≠ l))

/-- `RedefineBorders` (peakdetection.cpp:146-182): the loop runs from the last peak to the first and erases. -/
def redefineBorders (smooth : List K) (peaks : List (Nat × Nat)) : Res (List (Nat × Nat)) :=
  Res.foldN (fun k (l : List (Nat × Nat)) => Res.at_ l (peaks.length - 1 - k) >>= fun r =>
    keep smooth r >>= fun b => .ok (if b then l else l.eraseIdx (peaks.length - 1 - k))) 0 peaks.length peaks

/-- The left end of `FindGaussianFitStartAndStop` (peakdetection.cpp:102-112); `(int)(enlargeRate * width)` of two integers is
their product as long as it fits an `int`. -/
def fitStart (rate : Int) (b e : Int) (prev : Option Int) : Int :=
  let f := max 0 (b - rate * (e + 1 - b))
  match prev with
  | some pe => if pe > -1 then max pe f else f
  | none => f

/-- The right end (peakdetection.cpp:102-107 and 114-117). -/
def fitStop (rate len : Int) (b e : Int) (next : Option Int) : Int :=
  let f := min len (e + 1 + rate * (e + 1 - b))
  match next with
  | some nb => if nb > -1 then min nb f else f
  | none => f

/-- `FindGaussianFitStartAndStop` (peakdetection.cpp:98-120). -/
def fitRange (peaks : List (Nat × Nat)) (rate len : Int) (i : Nat) : Res (Int × Int) :=
  Res.at_ peaks i >>= fun r =>
    let prev := if 0 < i then (peaks[i - 1]?).map (fun (q : Nat × Nat) => (q.2 : Int)) else none
    let next := if i < peaks.length - 1 then (peaks[i + 1]?).map (fun (q : Nat × Nat) => (q.1 : Int)) else none
    .ok (fitStart rate r.1 r.2 prev, fitStop rate len r.1 r.2 next)

/-- The enlarged list of `Compute` (peakdetection.cpp:85-93). -/
def enlarged (rate len : Int) (peaks : List (Nat × Nat)) : Res (List (Int × Int)) :=
  if rate = 0 then .ok (peaks.map fun (r : Nat × Nat) => ((r.1 : Int), (r.2 : Int)))
  else Res.tab (fitRange peaks rate len) peaks.length

/-- `Compute` (peakdetection.cpp:61-96): `none` is the null pointer. -/
def compute (p : Prm K) (axis flux : List K) : Res (Option (List (Nat × Nat) × List (Int × Int))) :=
  (if p.half = 0 then .ok flux else Flux.applyMedianSmooth p.half flux >>= fun t => .ok t.2) >>= fun smooth =>
  findPossiblePeaks p axis smooth >>= fun peaks =>
  if peaks.length = 0 then .ok none
  else redefineBorders smooth peaks >>= fun kept =>
    enlarged p.rate axis.length kept >>= fun enl => .ok (some (kept, enl))

end Peaks
end Amazed
