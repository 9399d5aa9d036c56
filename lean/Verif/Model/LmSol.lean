import Verif.Model.Amp
import Verif.Model.EltList

set_option linter.unusedVariables false

/-! # The solution of a line fit: extraction and loading

`CLineModelFitting::GetModelSolution` and `LoadModelSolution` (linemodelfitting.cpp), `CLineModelSolution` (linemodelsolution.cpp/.h).

`none` stands for NaN (and for an infinite quotient). What comes from the spectra (position, continuum under a line, residual, width and unit flux of a line, direct
integration) is a parameter. The Lyman alpha profile, the number of degrees of freedom and `NLinesAboveSnrCut` (always 0) are not modelled. -/

namespace Amazed
namespace LmSol
open Amp

variable {K : Type} [Field K] [LinearOrder K] [IsStrictOrderedRing K] {G : Type}

/-- The part of `TLineModelElementParam` that a solution holds (elementparam.h:70-96): identifiers of the lines, catalog offsets (`CLine::GetOffset`), fitted amplitudes
and errors, offsets, velocities, fitting group (`none`: `undefStr`), polynomial. -/
structure Elm (K G : Type) where
  ids : List Nat
  emission : Bool
  absLimit : K
  catOff : List K
  fa : List (Option K)
  fastd : List (Option K)
  off : List (Option K)
  velE : Option K
  velA : Option K
  group : Option G
  poly : Option K × Option K × Option K

/-- `getVelocity` (elementparam.h:115-117). -/
def Elm.vel (e : Elm K G) : Option K := if e.emission then e.velE else e.velA

/-- The complexes whose flux is summed (linemodelfitting.cpp:920-922, 947-948): Hα with the two NII lines, the OII doublet. -/
inductive Tag | ha | oii | other
deriving DecidableEq

/-- A line of `m_RestLineList`: identifier, is it an emission line, complex. -/
structure Rest where
  id : Nat
  emission : Bool
  tag : Tag

/-- `getLineIndex(line_id)` (element.cpp:80-87); `m_LinesIds` maps the identifier of each line of the element to its index. -/
def Elm.lineIdx (e : Elm K G) (id : Nat) : Option Nat := e.ids.findIdx? (· == id)

/-- `findElementIndex(line_id)` (lmeltlistvector.cpp:207-219). -/
def find (es : List (Elm K G)) (id : Nat) : Option (Nat × Nat) :=
  (es.findIdx? fun e => (e.lineIdx id).isSome).bind fun i => (es[i]?).bind fun e => (e.lineIdx id).map fun k => (i, k)

/-- The vectors of `CLineModelSolution` at one line (linemodelsolution.cpp:42-63). -/
structure Row (K G : Type) where
  elt : Option Nat
  amp : Option K
  ampErr : Option K
  snr : Option K
  rms : Option K
  lambda : Option K
  off : Option K
  vel : Option K
  cont : Option K
  contErr : Option K
  sigma : Option K
  flux : Option K
  fluxErr : Option K
  di : Option K
  diErr : Option K
  outside : Bool
  group : Option G
  poly : Option K × Option K × Option K

/-- The default values (linemodelsolution.cpp:42-63). -/
def Row.default : Row K G :=
  ⟨none, none, none, none, none, none, none, none, none, none, none, none, none, none, none, true, none, (none, none, none)⟩

/-- What the spectra give: flags over all spectra, observed position, residual under the element, mean continuum under a line and its deviation, width and unit flux of the
line in the first spectrum where it is in range (`none`: no such spectrum), direct integration (flux and SNR). `level` is `opt_level ≠ 0`, `offsets` is
`m_enableAmplitudeOffsets`, `rules` is `getLineRatioType() == "rules"`. -/
structure Env (K : Type) where
  out : Nat → Nat → Bool
  pos : Nat → Nat → K
  rms : Nat → Option K
  cont : Nat → Nat → Option K × Option K
  unit : Nat → Nat → Option (K × K)
  di : List Nat → List Nat → Bool → Res (Option (K × K))
  level : Bool
  offsets : Bool
  rules : Bool
  sq : K → K
  lg : K → K

/-- A quotient; `none` when it is not finite. -/
def quo (a b : Option K) : Option K := match a, b with
  | some x, some y => if y = 0 then none else some (x / y)
  | _, _ => none

/-- `std::max(0.0, cont)`: 0 for a NaN. -/
def pos0 (c : Option K) : K := match c with
  | none => 0
  | some x => max 0 x

/-- `!std::isnan(amp) && amp >= 0.0` (linemodelfitting.cpp:878). -/
def hasFlux : Option K → Bool
  | none => false
  | some a => decide (0 ≤ a)

/-- Width, flux and flux error of a line (linemodelfitting.cpp:866-911). -/
def lineFlux (env : Env K) (emission : Bool) (e k : Nat) (amp ampErr : Option K) (c : Option K × Option K) : Res (Option K × Option K × Option K) :=
  if hasFlux amp then
    match env.unit e k with
    | none => .throw .INTERNAL_ERROR
    | some su =>
      let ae := if emission then ampErr else vAdd (vMul ampErr (some (pos0 c.1))) (vMul amp c.2)
      let a := if emission then amp else vMul amp (some (-(pos0 c.1)))
      .ok (some su.1, vMul a (some su.2), vMul ae (some su.2))
  else .ok (none, none, none)

/-- Flux of the direct integration (linemodelfitting.cpp:912-917). -/
def diFlux (r : Option (K × K)) : Option K := r.map (·.1)

/-- Uncertainty of the direct integration (linemodelfitting.cpp:916-917): absolute flux over SNR. -/
def diErr (r : Option (K × K)) : Option K := quo (vAbs (r.map (·.1))) (r.map (·.2))

/-- The sums for a complex (linemodelfitting.cpp:814-821): indexes of its lines met so far, flux and variance. -/
structure Acc (K : Type) where
  e : List Nat
  k : List Nat
  flux : K
  var : K

/-- The reported values of a complex: SNR and log of the flux, by direct integration and from the fit; `none` for NaN, an infinity or a null log. -/
structure Cplx (K : Type) where
  snrDI : Option K
  lfDI : Option K
  lf : Option K
  snr : Option K

/-- `x > 0 ? log10(x) : -INFINITY`; `none` for minus infinity. -/
def logPos (lg : K → K) (x : Option K) : Option K := match x with
  | none => none
  | some v => if v > 0 then some (lg v) else none

/-- `if (x > 0) s += f(x)`. -/
def addPos (s : K) (f : K → K) (x : Option K) : K := match x with
  | none => s
  | some v => if v > 0 then s + f v else s

/-- Adding a line to a complex of `n` lines (linemodelfitting.cpp:920-944 with `n = 3`, 947-967 with `n = 2`): the new sums and, when the number of lines reaches `n`, the
values of the complex. -/
def addCplx (env : Env K) (n e k : Nat) (flux fluxErr : Option K) (a : Acc K × Option (Cplx K)) : Res (Acc K × Option (Cplx K)) :=
  let a' : Acc K := ⟨a.1.e ++ [e], a.1.k ++ [k], addPos a.1.flux id flux, addPos a.1.var (fun x => x * x) fluxErr⟩
  if a'.e.length = n then
    env.di a'.e a'.k false >>= fun r =>
    .ok (a', some ⟨r.map (·.2), logPos env.lg (r.map (·.1)), logPos env.lg (some a'.flux), quo (some a'.flux) (some (env.sq a'.var))⟩)
  else .ok (a', a.2)

/-- The state of the loop on the lines: rows, Hα complex, OII doublet. -/
structure St (K G : Type) where
  rows : List (Row K G)
  ha : Acc K × Option (Cplx K)
  oii : Acc K × Option (Cplx K)

/-- The complexes after a line (linemodelfitting.cpp:919-968). -/
def complexes (env : Env K) (r : Rest) (e k : Nat) (flux fluxErr : Option K) (s : St K G) : Res (St K G) :=
  if r.emission = true ∧ r.tag = .ha then addCplx env 3 e k flux fluxErr s.ha >>= fun h => .ok { s with ha := h }
  else if r.emission = true ∧ r.tag = .oii then addCplx env 2 e k flux fluxErr s.oii >>= fun h => .ok { s with oii := h }
  else .ok s

/-- The values that do not need the spectra (linemodelfitting.cpp:834-851, 972-974). -/
def baseRow (env : Env K) (el : Elm K G) (e k : Nat) (amp ampErr o : Option K) : Row K G :=
  { (Row.default : Row K G) with
    elt := some e, amp := amp, ampErr := ampErr, snr := if env.rules then quo (vAbs amp) ampErr else none, lambda := some (env.pos e k), vel := el.vel, off := o,
    group := el.group, outside := false }

/-- The values computed from the spectra (linemodelfitting.cpp:853-917). -/
def fullRow (env : Env K) (el : Elm K G) (e k : Nat) (row : Row K G) (f : Option K × Option K × Option K) (d : Option (K × K)) : Row K G :=
  { row with
    rms := env.rms e, poly := if env.offsets then el.poly else (none, none, none), cont := (env.cont e k).1, contErr := (env.cont e k).2, sigma := f.1, flux := f.2.1,
    fluxErr := f.2.2, di := diFlux d, diErr := diErr d }

/-- The body of the loop for a line in range (linemodelfitting.cpp:834-975). -/
def inRange (env : Env K) (r : Rest) (el : Elm K G) (e k : Nat) (s : St K G) : Res (St K G) :=
  Res.at_ el.fa k >>= fun amp => Res.at_ el.fastd k >>= fun ampErr => Res.at_ el.off k >>= fun o =>
  if env.level then
    lineFlux env r.emission e k amp ampErr (env.cont e k) >>= fun f =>
    env.di [e] [k] r.emission >>= fun d =>
    complexes env r e k f.2.1 f.2.2 s >>= fun s' =>
    .ok { s' with rows := s'.rows ++ [fullRow env el e k (baseRow env el e k amp ampErr o) f d] }
  else .ok { s with rows := s.rows ++ [baseRow env el e k amp ampErr o] }

/-- The body of the loop (linemodelfitting.cpp:824-975). -/
def step (env : Env K) (es : List (Elm K G)) (r : Rest) (s : St K G) : Res (St K G) :=
  match find es r.id with
  | none => .ok { s with rows := s.rows ++ [Row.default] }
  | some ek =>
    if env.out ek.1 ek.2 then .ok { s with rows := s.rows ++ [{ (Row.default : Row K G) with elt := some ek.1 }] }
    else Res.at_ es ek.1 >>= fun el => inRange env r el ek.1 ek.2 s

/-- `GetModelSolution` (linemodelfitting.cpp:797-989): the loop on the lines of the catalog. -/
def extract (env : Env K) (es : List (Elm K G)) (rest : List Rest) : Res (St K G) :=
  EltList.foldL (fun r s => step env es r s) rest ⟨[], (⟨[], [], 0, 0⟩, none), (⟨[], [], 0, 0⟩, none)⟩

/-! ## Loading -/

/-- `resetFittingParams` (element.cpp:68-78), the velocities and `resetLambdaOffsets` (elementparam.h:226-229), as called at linemodelfitting.cpp:711-716; the
polynomial is that of the default constructor, null. -/
def Elm.reset (e : Elm K G) : Elm K G :=
  { e with fa := List.replicate e.ids.length none, fastd := List.replicate e.ids.length none, group := none, poly := (some 0, some 0, some 0), velE := none, velA := none,
           off := e.catOff.map some }

/-- `setFittedAmplitude` with the default nominal amplitude 1 (elementparam.h:160-171). -/
def Elm.setAmp (e : Elm K G) (k : Nat) (a s : Option K) : Elm K G :=
  { e with fa := e.fa.set k (if e.emission = false ∧ e.absLimit > 0 ∧ vGt a (some e.absLimit) = true then some e.absLimit else a), fastd := e.fastd.set k s }

/-- `setVelocity` (elementparam.cpp:164-176). -/
def Elm.setVel (e : Elm K G) (v : Option K) : Elm K G := if e.emission then { e with velE := v } else { e with velA := v }

/-- The first line of an element also sets its velocity, group and polynomial (linemodelfitting.cpp:741-756). -/
def Elm.setCommon (offsets : Bool) (row : Row K G) (e : Elm K G) : Elm K G :=
  let e1 : Elm K G := { e.setVel row.vel with group := row.group }
  if offsets then { e1 with poly := row.poly } else e1

/-- The body of the loop on the lines (linemodelfitting.cpp:722-757): elements and `element_done`. -/
def loadStep (offsets : Bool) (rr : Rest × Row K G) (s : List (Elm K G) × List Bool) : Res (List (Elm K G) × List Bool) :=
  match rr.2.elt with
  | none => .ok s
  | some i =>
    if rr.2.outside then .ok s
    else Res.at_ s.1 i >>= fun e =>
      match e.lineIdx rr.1.id with
      | none => .ok s
      | some k =>
        let e1 : Elm K G := { e.setAmp k rr.2.amp rr.2.ampErr with off := e.off.set k rr.2.off }
        Res.at_ s.2 i >>= fun d =>
        if d then .ok (s.1.set i e1, s.2) else .ok (s.1.set i (e1.setCommon offsets rr.2), s.2.set i true)

/-- `LoadModelSolution` (linemodelfitting.cpp:705-757): the parameters of the elements. -/
def load (offsets : Bool) (es : List (Elm K G)) (rest : List Rest) (rows : List (Row K G)) : Res (List (Elm K G)) :=
  EltList.foldL (fun rr s => loadStep offsets rr s) (rest.zip rows) (es.map Elm.reset, List.replicate es.length false) >>= fun s => .ok s.1

/-- `isLineValid` (linemodelsolution.cpp:72-76). -/
def isLineValid (rows : List (Row K G)) (i : Nat) : Res Bool :=
  if rows = [] then .throw .INTERNAL_ERROR
  else Res.at_ rows i >>= fun r => .ok (!r.outside && vGt r.amp (some 0))

end LmSol
end Amazed
