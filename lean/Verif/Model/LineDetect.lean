import Verif.Model.Peaks
import Verif.Model.LineCat
import Mathlib.Algebra.Order.Floor.Defs
import Mathlib.Algebra.Order.Floor.Ring

set_option linter.unusedVariables false

/-! # Line detection (`RedshiftLibrary/src/lib/operator/linedetection.cpp`, `src/lib/line/catalog.cpp`)

The Gaussian fit is a parameter. Samples are elements of an ordered field; `-DBL_MAX`, the start of the searches of a maximum, is
below every sample, so that the first sample looked at is always taken. -/

namespace Amazed
namespace LineDetect
open Amp (LType Force)

variable {K : Type} [Field K] [LinearOrder K] [IsStrictOrderedRing K]

/-- A quotient in double precision: a number, or what a division by zero gives. -/
inductive Quo (K : Type) where
  | num (x : K)
  | pinf
  | minf
  | nan
deriving DecidableEq

/-- The division of doubles. -/
def quo (a b : K) : Quo K :=
  if b = 0 then (if 0 < a then .pinf else if a < 0 then .minf else .nan) else .num (a / b)

/-- `q < x`. -/
def Quo.lt : Quo K → K → Bool
  | .num y, x => decide (y < x)
  | .minf, _ => true
  | _, _ => false

/-- `q > x`. -/
def Quo.gt : Quo K → K → Bool
  | .num y, x => decide (x < y)
  | .pinf, _ => true
  | _, _ => false

/-- `q <= x`. -/
def Quo.le : Quo K → K → Bool
  | .num y, x => decide (y ≤ x)
  | .minf, _ => true
  | _, _ => false

/-- `q >= x`. -/
def Quo.ge : Quo K → K → Bool
  | .num y, x => decide (x ≤ y)
  | .pinf, _ => true
  | _, _ => false

/-- The parts of a spectrum that are read: wavelengths, flux, errors. -/
structure Spc (K : Type) where
  axis : List K
  flux : List K
  err : List K

/-- The search of the highest sample (linedetection.cpp:323-329 with a mask, 167-175 without). -/
def maxStep (flux mask : List K) (k : Nat) (st : Option (K × Nat)) : Res (Option (K × Nat)) :=
  Res.at_ flux k >>= fun v => Res.at_ mask k >>= fun m =>
    match st with
    | none => if m ≠ 0 then .ok (some (v, k)) else .ok none
    | some s => if s.1 < v ∧ m ≠ 0 then .ok (some (v, k)) else .ok st

/-- The unmasked flux of the window (linedetection.cpp:348-356). -/
def maskStep (flux mask : List K) (i : Nat) (l : List K) : Res (List K) :=
  Res.at_ mask i >>= fun m => if m ≠ 0 then Res.at_ flux i >>= fun v => .ok (l ++ [v]) else .ok l

/-- Is the noise 1 on the window (linedetection.cpp:366-371); the `break` only saves time. -/
def onesStep (err : List K) (i : Nat) (b : Bool) : Res Bool :=
  if b then Res.at_ err i >>= fun e => .ok (decide (e = 1)) else .ok false

/-- Sum and number of the errors of the unmasked samples (linedetection.cpp:374-380). -/
def meanStep (err mask : List K) (i : Nat) (s : K × Nat) : Res (K × Nat) :=
  Res.at_ mask i >>= fun m => if m ≠ 0 then Res.at_ err i >>= fun e => .ok (s.1 + e, s.2 + 1) else .ok s

/-- The noise of the window (linedetection.cpp:360-391). -/
def noiseWin (err mask : List K) (left right : Nat) (xmad : K) : Res K :=
  if err.length = 0 then .ok xmad
  else Res.foldN (onesStep err) left (right - left) true >>= fun ones =>
    if ones then .ok xmad
    else Res.foldN (meanStep err mask) left (right - left) (0, 0) >>= fun s =>
      let mean := if 0 < s.2 then s.1 / (s.2 : K) else s.1
      .ok (if mean > xmad then mean else xmad)

/-- The part of `ComputeFluxes` after the search of the maximum (linedetection.cpp:339-402): ratio, maximum without continuum
and the noise written to the output pointer. -/
def fluxesAt (s : Spc K) (win : K) (rb re : Nat) (mask : List K) (mx : K × Nat) : Res (Quo K × K × K) :=
  Res.at_ s.axis mx.2 >>= fun x =>
  SAxis.indexAt s.axis (x - win / 2) >>= fun l0 => SAxis.indexAt s.axis (x + win / 2) >>= fun r0 =>
  let left := max rb l0
  let right := min (re + 1) (min s.flux.length (r0 + 1))
  Res.foldN (maskStep s.flux mask) left (right - left) [] >>= fun fm =>
  Median.find fm >>= fun med => Peaks.xmad fm med >>= fun d =>
  noiseWin s.err mask left right d >>= fun nw => .ok (quo (mx.1 - med) nw, mx.1 - med, d)

/-- `ComputeFluxes` (linedetection.cpp:299-403). -/
def computeFluxes (s : Spc K) (win : K) (rb re : Int) (mask : List K) : Res (Quo K × K × K) :=
  if (s.flux.length : Int) ≤ re then .throw .INTERNAL_ERROR
  else if rb < 0 then .throw .INTERNAL_ERROR
  else
    let mask := if mask.length = 0 then List.replicate s.axis.length 1 else mask
    Res.foldN (maxStep s.flux mask) rb.toNat (re + 1 - rb).toNat none >>= fun mx =>
      match mx with
      | none => .throw .INTERNAL_ERROR
      | some mx => fluxesAt s win rb.toNat re.toNat mask mx

/-! ## `Compute` -/

/-- What the Gaussian fit gives (linedetection.cpp:115-125): amplitude, position, width, errors of the three, continuum. -/
structure Fit (K : Type) where
  amp : K
  pos : K
  width : K
  ampErr : K
  posErr : K
  widthErr : K
  cont : K

/-- A `CLineDetected` (linedetected.h:50-95); the cut is a quotient. -/
structure Det (K : Type) where
  name : String
  pos : K
  type : LType
  force : Force
  amp : K
  width : K
  cut : Quo K
  posErr : K
  widthErr : K
  ampErr : K
deriving DecidableEq

/-- The parameters of a `CLineDetection` (linedetection.cpp:57-72). -/
structure Prm (K : Type) where
  type : LType
  cut : K
  strongcut : K
  win : K
  minsize : K
  maxsize : K
  noCheck : Bool

/-- The strings of `PeakListDetectionStatus`. -/
inductive Status where
  | fitFailed | ampNegative | widthNegative | tooNarrow | tooWide | ampFar | posFar | belowCut | detected
deriving DecidableEq

/-- The state of the loop over the peaks: statuses (with the number of the peak), catalogue in the order of its keys
`0, 1, …`, and the peaks to test again. -/
structure St (K : Type) where
  status : List (Nat × Status)
  cat : List (Det K)
  retest : List ((Nat × Nat) × (K × K × K))

/-- `FWHM_FACTOR` (linedetection.cpp:61). -/
def fwhm : K := 235 / 100

/-- The checks of the width (linedetection.cpp:136-161): the statuses added. The line is refused if there is one. -/
def widthCheck (p : Prm K) (g : Fit K) : List Status :=
  if g.width < 0 then [.widthNegative]
  else (if fwhm * g.width < p.minsize then [.tooNarrow] else []) ++ (if fwhm * g.width > p.maxsize then [.tooWide] else [])

/-- The comparison with the spectrum (linedetection.cpp:177-203), given the highest sample of the peak. -/
def qualityCheck (g : Fit K) (x : K) (mx : K) : List Status :=
  (if (quo (g.amp + g.cont) mx).le (65 / 100) || (quo (g.amp + g.cont) mx).ge (135 / 100) then [.ampFar] else []) ++
  (if |g.pos - x| > 6 then [.posFar] else [])

/-- The statuses of the checks before the ratio (linedetection.cpp:127-204). -/
def checks (p : Prm K) (s : Spc K) (r : Nat × Nat) (g : Fit K) : Res (List Status) :=
  if g.amp < 0 then .ok [.ampNegative]
  else if widthCheck p g ≠ [] then .ok (widthCheck p g)
  else if p.noCheck then .ok []
  else Res.foldN (maxStep s.flux (List.replicate s.flux.length 1)) r.1 (r.2 + 1 - r.1) none >>= fun mx =>
    match mx with
    | none => .ub
    | some mx => Res.at_ s.axis mx.2 >>= fun x => .ok (qualityCheck g x mx.1)

/-- The test of the ratio and the new line (linedetection.cpp:206-243). -/
def ratioTest (p : Prm K) (s : Spc K) (j : Nat) (r : Nat × Nat) (g : Fit K) (st : St K) : Res (St K) :=
  computeFluxes s p.win r.1 r.2 [] >>= fun q =>
    if q.1.lt p.cut then
      .ok { st with status := st.status ++ [(j, .belowCut)], retest := st.retest ++ [(r, (g.pos, g.amp, g.width))] }
    else
      let force := if q.1.gt (p.cut * p.strongcut) then Force.strong else Force.weak
      .ok { st with
        status := st.status ++ [(j, .detected)],
        cat := st.cat ++ [⟨"detected_peak_" ++ toString j, g.pos, p.type, force, g.amp, g.width, q.1, g.posErr, g.widthErr, g.ampErr⟩] }

/-- One turn of the loop over the peaks (linedetection.cpp:94-244). -/
def peakStep (p : Prm K) (s : Spc K) (fit : Int × Int → Option (Fit K)) (peaks : List (Nat × Nat)) (enl : List (Int × Int))
    (j : Nat) (st : St K) : Res (St K) :=
  Res.at_ enl j >>= fun fr =>
    match fit fr with
    | none => .ok { st with status := st.status ++ [(j, .fitFailed)] }
    | some g => Res.at_ peaks j >>= fun r => checks p s r g >>= fun bad =>
        if bad ≠ [] then .ok { st with status := st.status ++ bad.map (fun b => (j, b)) }
        else ratioTest p s j r g st

/-- Truncation of a double to an integer (no overflow). -/
def trunc [FloorRing K] (x : K) : Int := if 0 ≤ x then ⌊x⌋ else ⌈x⌉

/-- The selection of `Retest` (linedetection.cpp:421-447): one entry per pair of a peak and a strong line near it; the window
is an integer (`Int32 winsize`). -/
def selectRetest [FloorRing K] (s : Spc K) (win : K) (strong : List (Det K)) :
    List ((Nat × Nat) × (K × K × K)) → Res (List ((Nat × Nat) × (K × K × K)))
  | [] => .ok []
  | x :: xs => Res.at_ s.axis x.1.1 >>= fun start => Res.at_ s.axis x.1.2 >>= fun stop =>
    let c := (stop + start) / 2
    selectRetest s win strong xs >>= fun l =>
      .ok ((strong.filter fun d => decide (d.pos - (trunc win : K) / 2 < c ∧ d.pos + (trunc win : K) / 2 > c)).map (fun _ => x) ++ l)

/-- The interval of a strong line in whole angstroms (linedetection.cpp:476-480): its half width is `FWHM_FACTOR` times the
*cut* of the line. A cut that is not finite does not convert to an integer. -/
def excluded [FloorRing K] (d : Det K) : Res (Int × Int) :=
  match d.cut with
  | .num c => .ok (trunc (d.pos - fwhm * c), trunc (d.pos + fwhm * c))
  | _ => .ub

/-- Making room for one peak to test again (linedetection.cpp:486-495). -/
def makeRoom (line : Int × Int) (t : Int × Int) : Int × Int :=
  if line.2 > t.1 ∧ line.1 < t.2 then (if t.1 > line.1 then (line.2, t.2) else (t.1, line.1)) else t

/-- The mask of a wavelength (linedetection.cpp:499-508). -/
def masked (ex : List (Int × Int)) (x : K) : K := if ex.any (fun t => decide ((t.1 : K) ≤ x ∧ x ≤ (t.2 : K))) then 0 else 1

/-- The loop of `reducedindexesMap` (linedetection.cpp:513-517) from an entry of value `a`. -/
def redGo : List K → Nat → List Nat
  | [], _ => []
  | m :: ms, a => (if m ≠ 0 then a + 1 else a) :: redGo ms (if m ≠ 0 then a + 1 else a)

/-- `reducedindexesMap` (linedetection.cpp:512-517): the entry 0 is 0 whatever the mask. -/
def reducedMap : List K → List Nat
  | [] => []
  | _ :: ms => 0 :: redGo ms 0

/-- The masked spectrum (spectrum.cpp:63-97). -/
def reduce (mask : List K) (s : Spc K) : Res (Spc K) :=
  maskVector mask s.axis >>= fun a => maskVector mask s.flux >>= fun f =>
    if s.err.length = 0 then .ok ⟨a, f, []⟩ else maskVector mask s.err >>= fun e => .ok ⟨a, f, e⟩

/-- `CLineDetected::operator<` (linedetected.h:69-74), as the total preorder that the sort uses. -/
def detLe (a b : Det K) : Bool := if a.pos = b.pos then decide (a.amp ≤ b.amp) else decide (a.pos < b.pos)

/-- `CLineDetectedCatalog::Sort` (catalog.cpp:199-212), with the sort as a parameter (`std::sort` is not stable). -/
def sortCat (srt : List (Det K) → List (Det K)) (c : List (Det K)) : List (Det K) := srt c

/-- One peak tested again (linedetection.cpp:520-537). -/
def retestOne (srt : List (Det K) → List (Det K)) (p : Prm K) (win : K) (red : Spc K) (map : List Nat) (k : Nat)
    (x : (Nat × Nat) × (K × K × K)) (cat : List (Det K)) : Res (List (Det K)) :=
  Res.at_ map x.1.1 >>= fun b => Res.at_ map x.1.2 >>= fun e =>
  computeFluxes red win b e [] >>= fun q =>
    if q.1.gt p.cut then
      .ok (sortCat srt (cat ++ [⟨"detected_retested_peak_" ++ toString k, x.2.1, p.type, .weak, x.2.2.1, x.2.2.2, q.1, -1, -1, -1⟩]))
    else .ok cat

/-- The loop over the selected peaks (linedetection.cpp:519-538). -/
def retestLoop (srt : List (Det K) → List (Det K)) (p : Prm K) (win : K) (red : Spc K) (map : List Nat) :
    Nat → List ((Nat × Nat) × (K × K × K)) → List (Det K) → Res (List (Det K))
  | _, [], cat => .ok cat
  | k, x :: xs, cat => retestOne srt p win red map k x cat >>= fun c => retestLoop srt p win red map (k + 1) xs c

/-- The intervals to exclude (linedetection.cpp:482-496). -/
def excludeAll [FloorRing K] (s : Spc K) : List ((Nat × Nat) × (K × K × K)) → List (Int × Int) → Res (List (Int × Int))
  | [], ex => .ok ex
  | x :: xs, ex => Res.at_ s.axis x.1.1 >>= fun b => Res.at_ s.axis x.1.2 >>= fun e =>
      excludeAll s xs (ex.map (makeRoom (trunc b, trunc e)))

/-- The intervals of the strong lines (linedetection.cpp:474-480). -/
def excludedAll [FloorRing K] : List (Det K) → Res (List (Int × Int))
  | [] => .ok []
  | d :: ds => excluded d >>= fun t => excludedAll ds >>= fun l => .ok (t :: l)

/-- `RemoveStrongFromSpectra` (linedetection.cpp:465-539). -/
def removeStrong [FloorRing K] (srt : List (Det K) → List (Det K)) (p : Prm K) (s : Spc K) (strong : List (Det K))
    (sel : List ((Nat × Nat) × (K × K × K))) (cat : List (Det K)) : Res (List (Det K)) :=
  excludedAll strong >>= fun ex0 => excludeAll s sel ex0 >>= fun ex =>
  reduce (s.axis.map (masked ex)) s >>= fun red =>
  retestLoop srt p (trunc p.win : K) red (reducedMap (s.axis.map (masked ex))) 0 sel cat

/-- `Retest` (linedetection.cpp:408-459). -/
def retest [FloorRing K] (srt : List (Det K) → List (Det K)) (p : Prm K) (s : Spc K) (st : St K) : Res (List (Det K)) :=
  let strong := st.cat.filter fun d => (decide (p.type = .all) || decide (p.type = d.type)) && decide (d.force = .strong)
  selectRetest s p.win strong st.retest >>= fun sel =>
    if sel.length = 0 then .ok st.cat else removeStrong srt p s strong sel st.cat

/-- `Compute` (linedetection.cpp:78-255): statuses and catalogue. -/
def compute [FloorRing K] (srt : List (Det K) → List (Det K)) (p : Prm K) (s : Spc K) (fit : Int × Int → Option (Fit K))
    (peaks : List (Nat × Nat)) (enl : List (Int × Int)) : Res (List (Nat × Status) × List (Det K)) :=
  Res.foldN (peakStep p s fit peaks enl) 0 peaks.length ⟨[], [], []⟩ >>= fun st =>
    if st.retest.length = 0 then .ok (st.status, st.cat)
    else retest srt p s st >>= fun cat => .ok (st.status, cat)

end LineDetect
end Amazed
