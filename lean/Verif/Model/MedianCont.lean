import Mathlib.Algebra.Order.Floor.Ring
import Verif.Model.Loop
import Verif.Model.Median
import Verif.Model.SpectralAxis

/-! # Continuum by median smoothing (`src/lib/continuum/irregularsamplingmedian.cpp`)

Samples are elements of a linearly ordered field; division by zero, the conversion of a number that does not fit in
an `Int32`, the overflow of an `Int32` and a violated precondition of `boost::algorithm::clamp` are `ub`. -/

namespace Amazed
namespace MedCont

section
variable {K : Type} [Field K] [LinearOrder K]

/-- The largest `Int32`. -/
def int32Max : Int := 2147483647

/-- The samples of the window of sample `i`, `[max(0, i - half), min(i + half + rest, n))` of `MedianSmooth` and
`MeanSmooth` (irregularsamplingmedian.cpp:91-104, 115-131), for a window of size `w ≥ 0`. The window never starts
after its end since it starts at or before `i < n`. -/
def window (y : List K) (w i : Nat) : List K :=
  (y.take (min (i + w / 2 + (w - 2 * (w / 2))) y.length)).drop (i - w / 2)

/-- Both smoothings, `f` being the statistic of a window. The largest index computed is that of the last sample. -/
def smooth (f : List K → Res K) (y : List K) (w : Nat) : Res (List K) :=
  if int32Max < (y.length : Int) - 1 + (w / 2 : Nat) + (w - 2 * (w / 2) : Nat) then .ub
  else Res.tab (fun i => f (window y w i)) y.length

/-- `CMean::Find` (common/mean.hpp:40-46): the mean of an empty range is a division by zero. -/
def mean (l : List K) : Res K := if l = [] then .ub else .ok (l.sum / (l.length : K))

/-- `MedianSmooth` (irregularsamplingmedian.cpp:86-109). -/
def medianSmooth (y : List K) (w : Nat) : Res (List K) := smooth Median.find y w

/-- `MeanSmooth` (irregularsamplingmedian.cpp:111-133). -/
def meanSmooth (y : List K) (w : Nat) : Res (List K) := smooth mean y w

/-- `EvenMirror` (irregularsamplingmedian.cpp:166-184): the `n` first samples reversed in front, the `n` last samples
reversed behind; it reads past the input when `n` is larger than its size. -/
def evenMirror (y : List K) (n : Nat) : Res (List K) :=
  if y.length < n then .ub else .ok ((y.take n).reverse ++ y ++ y.reverse.take n)

/-- `OddMirror` (irregularsamplingmedian.cpp:140-161). -/
def oddMirror (y : List K) (n : Nat) (b e : K) : Res (List K) :=
  if y.length < n then .ub
  else .ok ((y.take n).reverse.map (2 * b - ·) ++ y ++ (y.reverse.take n).map (2 * e - ·))

/-- First loop of `FindEffectiveSpectrumBorder` (irregularsamplingmedian.cpp:210-215), from `k0 = 0`. -/
def firstNonNull (l : List K) : Nat := (l.findIdx? (fun x => decide (x ≠ 0))).getD 0

/-- Second loop of `FindEffectiveSpectrumBorder` (irregularsamplingmedian.cpp:218-223), from `k1 = 0`. -/
def lastNonNull (l : List K) : Nat :=
  match l.reverse.findIdx? (fun x => decide (x ≠ 0)) with
  | some i => l.length - 1 - i
  | none => 0

/-- Third loop and result of `FindEffectiveSpectrumBorder` (irregularsamplingmedian.cpp:226-240): more than ten
samples that are not null. -/
def enoughSamples (l : List K) : Bool := decide (10 < (l.filter (fun x => decide (x ≠ 0))).length)

/-- The reflection size (irregularsamplingmedian.cpp:307-308); `round(nd / 2.0)` is `(nd + 1) / 2`. The precondition of
`boost::algorithm::clamp` is that the lower bound is not above the upper one. -/
def reflexion (nd mean : Nat) : Res Nat :=
  if 5 * mean < 10 then .ub
  else if (nd + 1) / 2 < 10 then .ok 10
  else if 5 * mean < (nd + 1) / 2 then .ok (5 * mean)
  else .ok ((nd + 1) / 2)

/-- The cycles `for (k = 0; k < m_MedianSmoothCycles; k++) ysmoobig = MedianSmooth(ysmoobig, w)`
(irregularsamplingmedian.cpp:342-345, 351-354). -/
def cycle (w : Nat) : Nat → List K → Res (List K)
  | 0, y => .ok y
  | n + 1, y => medianSmooth y w >>= fun y' => cycle w n y'

/-- Median and mean smoothing of the extended spectrum (irregularsamplingmedian.cpp:336-361), the amplitudes being in
samples; `a | 1` is the next odd number. -/
def smoothAll (cycles med mean : Nat) (y : List K) : Res (List K) :=
  if int32Max < 2 * (med : Int) + 1 then .ub
  else
    cycle (2 * med + 1) cycles y >>= fun y1 =>
    cycle (2 * (med / 2) + 1) cycles y1 >>= fun y2 => meanSmooth y2 (mean / 4)

/-- The parameters of the estimator (irregularsamplingmedian.h:103-106). -/
structure Cfg (K : Type) where
  meanW : K
  medianW : K
  cycles : Int
  even : Bool

/-- The final copy (irregularsamplingmedian.cpp:363-379): the continuum is subtracted inside `[k0, k1]`. -/
def subtract (flux smoothed : List K) (k0 k1 nreflex : Nat) : Res (List K) :=
  Res.tab (fun j => Res.at_ flux j >>= fun x =>
    if j < k0 ∨ k1 < j then .ok x
    else Res.at_ smoothed (j - k0 + nreflex) >>= fun c => .ok (x - c)) flux.length

variable [FloorRing K]

/-- `round` of the C library (half-way cases away from zero). -/
def cround (x : K) : Int := if 0 ≤ x then ⌊x + 1 / 2⌋ else -⌊-x + 1 / 2⌋

/-- `Int32 a = round(width / resolution)` (irregularsamplingmedian.cpp:271, 285). -/
def amplitude (width resolution : K) : Res Int :=
  if resolution = 0 then .ub
  else
    let r := cround (width / resolution)
    if r < -2147483648 ∨ int32Max < r then .ub else .ok r

/-- `ProcessRemoveContinuum` (irregularsamplingmedian.cpp:259-382): the returned flag and the final
`noContinuumFluxAxis`, whose value before the call is `out`. `fit k0 k1 right` is `FitBorder` (lines 187-203), the weighted
linear fit of the GSL between two samples. -/
def process (fit : Nat → Nat → Bool → K) (cfg : Cfg K) (flux out : List K) (resolution : K) :
    Res (Bool × List K) :=
  amplitude cfg.meanW resolution >>= fun m =>
  if m ≤ 0 then .ok (false, out)
  else
    let mean := min m.toNat (flux.length / 2)
    if cfg.cycles ≤ 0 then .ok (false, out)
    else
      amplitude cfg.medianW resolution >>= fun d =>
      if d ≤ 0 then .ok (false, out)
      else
        let med := max mean d.toNat
        if enoughSamples flux = false then .ok (false, List.replicate flux.length 0)
        else
          let k0 := firstNonNull flux
          let k1 := lastNonNull flux
          let eff := (flux.take (k1 + 1)).drop k0
          reflexion (k1 - k0 + 1) mean >>= fun n =>
          (if cfg.even = true then evenMirror eff n
            else oddMirror eff n (fit k0 (max (k0 + n) k1) false) (fit (min k0 (k1 - n)) k1 true)) >>= fun big =>
          smoothAll cfg.cycles.toNat med mean big >>= fun big' =>
          subtract flux big' k0 k1 n >>= fun l => .ok (true, l)

/-- `RemoveContinuum` (irregularsamplingmedian.cpp:248-256) and `GetMeanResolution()` (spectralaxis.h:90-92), as
`EstimateContinuum` calls it (spectrum.cpp:306-311): both widths are the window, 5 cycles, into a cleared axis. -/
def remove (fit : Nat → Nat → Bool → K) (axis flux : List K) (win : K) (even : Bool) : Res (List K) :=
  SAxis.meanResolution axis 0 (axis.length - 1) >>= fun r =>
  process fit ⟨win, win, 5, even⟩ flux [] r >>= fun p => .ok p.2

end
end MedCont
end Amazed
