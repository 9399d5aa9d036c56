import Verif.Model.LineProfile
import Verif.Model.SymIgm

set_option linter.unusedVariables false

/-! # Position, width, model and derivatives of a line element (`src/lib/linemodel/element.cpp`)

Real arithmetic. The profile of a line is given by its three functions (`Model/LineProfile.lean` and `Model/SymIgm.lean` model the four classes). The LSF is given by
`checkAvailability` and `GetWidth`. The width type is one of the three of the enumeration. All the lines of an element have the same sign. A NaN velocity is not represented. -/

namespace Amazed
namespace EltDeriv

/-- The functions `GetLineProfileVal`, `GetLineProfileDerivX0`, `GetLineProfileDerivSigma` of a profile (line/lineprofile.h:104-123). -/
structure Prof where
  val : ℝ → ℝ → ℝ → Res ℝ
  dX0 : ℝ → ℝ → ℝ → Res ℝ
  dSig : ℝ → ℝ → ℝ → Res ℝ

/-- `CLineProfileSYM` (lineprofileSYM.cpp:51-88). -/
noncomputable def symProf : Prof := ⟨Profile.symVal, Profile.symDerivX0, Profile.symDerivSigma⟩

/-- `CLineProfileLOR` (lineprofileLOR.cpp:48-77). -/
noncomputable def lorProf : Prof := ⟨Profile.lorVal, Profile.lorDeriv, Profile.lorDeriv⟩

/-- `CLineProfileASYM` and `CLineProfileASYMFIT` (lineprofileASYM.cpp:106-175). -/
noncomputable def asymProf (p : Profile.Asym) : Prof := ⟨Profile.asymVal p, Profile.asymDerivX0 p, Profile.asymDerivSigma p⟩

/-- `CLineProfileSYMIGM` (lineprofileSYMIGM.cpp:62-150). -/
noncomputable def igmProf (p : SymIgm.P) : Prof := ⟨SymIgm.val p, SymIgm.derivX0 p, SymIgm.derivSigma p⟩

/-- A line: rest position, offset (km/s), `GetDelta` of its profile, profile, fitted amplitude (`none`: NaN) and its error, nominal amplitude, `m_OutsideLambdaRangeList`. -/
structure Line where
  pos : ℝ
  off : ℝ
  delta : ℝ
  prof : Prof
  amp : Option ℝ
  std : Option ℝ
  nominal : ℝ
  out : Bool

/-- `ELineWidthType` (elementparam.h:56-60). -/
inductive WType | instrument | velocity | combined
deriving DecidableEq

/-- The element: `light` is `SPEED_OF_LIGHT_IN_VACCUM`; `avail` and `lsf` are `checkAvailability` and `GetWidth` of the LSF, absent if the pointer is null. -/
structure Elt where
  lines : List Line
  outside : Bool
  emission : Bool
  velE : ℝ
  velA : ℝ
  wtype : WType
  light : ℝ
  lsf : Option ((ℝ → Bool) × (ℝ → Res ℝ))

/-- `getVelocity` (elementparam.cpp:152-154). -/
def Elt.vel (e : Elt) : ℝ := if e.emission then e.velE else e.velA

/-- `m_SignFactors` (elementparam.cpp, `getSignFactor`): 1 for an emission, -1 for an absorption line. -/
def Elt.sign (e : Elt) : ℝ := if e.emission then 1 else -1

/-- `GetLineWidth` (element.cpp:111-141). -/
noncomputable def lineWidth (e : Elt) (x : ℝ) : Res ℝ :=
  match e.lsf with
  | none => .throw .INTERNAL_ERROR
  | some l =>
    l.2 x >>= fun s =>
    if e.light = 0 then .ub
    else
      let v := 1 * e.vel / e.light * x
      let v' := match e.wtype with | .instrument => 0 | _ => v
      let s' := match e.wtype with | .velocity => 0 | _ => s
      .ok (√(s' * s' + v' * v'))

/-- `GetObservedPosition` of a line (element.cpp:472-486). -/
noncomputable def obsPos (e : Elt) (l : Line) (z : ℝ) (asym : Bool) : Res ℝ :=
  if e.light = 0 then .ub
  else
    let mu := l.pos * (1 + z) * (1 + l.off / e.light)
    .ok (if asym then mu - l.delta else mu)

/-- The loop of `GetObservedPosition` of an element (element.cpp:490-498): the sum and the number of the lines which are not outside. -/
noncomputable def posSum (e : Elt) (z : ℝ) (asym : Bool) : List Line → ℝ × Nat → Res (ℝ × Nat)
  | [], a => .ok a
  | l :: ls, a => if l.out then posSum e z asym ls a else obsPos e l z asym >>= fun m => posSum e z asym ls (a.1 + m, a.2 + 1)

/-- `GetObservedPosition` of an element (element.cpp:488-504): the mean over its lines. -/
noncomputable def meanPos (e : Elt) (z : ℝ) (asym : Bool) : Res ℝ :=
  posSum e z asym e.lines (0, 0) >>= fun a => if a.2 = 0 then .throw .INTERNAL_ERROR else .ok (a.1 / (a.2 : ℝ))

/-- The end of `getObservedPositionAndLineWidth` (element.cpp:461-465): the width at a position; a null pointer to the LSF is dereferenced. -/
noncomputable def withWidth (e : Elt) (mu : ℝ) : Res (ℝ × ℝ) :=
  match e.lsf with
  | none => .ub
  | some l => if l.1 mu = false then .throw .INTERNAL_ERROR else lineWidth e mu >>= fun s => .ok (mu, s)

/-- `getObservedPositionAndLineWidth` of a line (element.cpp:454-466). -/
noncomputable def posWidth (e : Elt) (l : Line) (z : ℝ) (asym : Bool) : Res (ℝ × ℝ) := obsPos e l z asym >>= withWidth e

/-- `getObservedPositionAndLineWidth` of an element (element.cpp:454-466, without line index). -/
noncomputable def meanPosWidth (e : Elt) (z : ℝ) (asym : Bool) : Res (ℝ × ℝ) := meanPos e z asym >>= withWidth e

/-- `GetLineProfileAtRedshift` (element.cpp:510-520). -/
noncomputable def profAt (e : Elt) (l : Line) (z x : ℝ) : Res ℝ := posWidth e l z false >>= fun q => l.prof.val x q.1 q.2

/-- The loops over the lines which are not outside: `f` is the contribution of a line. -/
noncomputable def sumLines (f : Line → Res ℝ) : List Line → ℝ → Res ℝ
  | [], y => .ok y
  | l :: ls, y => if l.out then sumLines f ls y else f l >>= fun v => sumLines f ls (y + v)

/-- The contribution of a line to the model (element.cpp:652-663). -/
noncomputable def lineModel (e : Elt) (x z c : ℝ) (l : Line) : Res ℝ :=
  match l.amp with
  | none => .ok 0
  | some a => if a < 0 then .ok 0 else profAt e l z x >>= fun p =>
    let f := e.sign * a * p
    .ok (if e.emission then f else c * f)

/-- `getModelAtLambda` without line index (element.cpp:635-672). -/
noncomputable def modelAt (e : Elt) (x z c : ℝ) : Res ℝ := if e.outside then .ok 0 else sumLines (lineModel e x z c) e.lines 0

/-- `GetModelDerivAmplitudeAtLambda` (element.cpp:674-695). -/
noncomputable def derivAmp (e : Elt) (x z c : ℝ) : Res ℝ :=
  if e.outside then .ok 0
  else sumLines (fun l => profAt e l z x >>= fun p =>
    let f := e.sign * l.nominal * p
    .ok (if e.emission then f else c * f)) e.lines 0

/-- `GetLineProfileDerivVel` (elementparam.cpp:275-306). -/
noncomputable def profDerivVel (e : Elt) (p : Prof) (x x0 sigma : ℝ) : Res ℝ :=
  if e.light = 0 then .ub
  else
    let vs := 1 / e.light * x0
    p.dSig x x0 sigma >>= fun d =>
    match e.wtype with
    | .instrument => .ok 0
    | .combined => if sigma = 0 then .ub else .ok (vs * vs * e.vel / sigma * d)
    | .velocity => .ok (vs * d)

/-- `GetModelDerivVelAtLambda` (element.cpp:697-729). -/
noncomputable def derivVel (e : Elt) (x z c : ℝ) : Res ℝ :=
  if e.outside then .ok 0
  else sumLines (fun l =>
    match l.amp with
    | none => .ok 0
    | some a => if a < 0 then .ok 0 else posWidth e l z false >>= fun q => profDerivVel e l.prof x q.1 q.2 >>= fun d =>
      let f := e.sign * a * d
      .ok (if e.emission then f else c * f)) e.lines 0

/-- `GetModelDerivContinuumAmpAtLambda` (element.cpp:731-759); `c` is the continuum before its scaling. -/
noncomputable def derivCont (e : Elt) (x z c : ℝ) : Res ℝ :=
  if e.outside then .ok 0
  else sumLines (fun l =>
    if e.emission then .ok 0
    else match l.amp with
      | none => .ok 0
      | some a => profAt e l z x >>= fun p => .ok (e.sign * c * a * p)) e.lines 0

/-- `GetModelDerivZAtLambda` (element.cpp:764-802); `dc` is the derivative of the continuum with respect to the redshift. -/
noncomputable def derivZ (e : Elt) (x z c dc : ℝ) : Res ℝ :=
  if e.outside then .ok 0
  else sumLines (fun l =>
    match l.amp with
    | none => .ok 0
    | some a => posWidth e l z false >>= fun q => obsPos e l 0 false >>= fun r => l.prof.dX0 x q.1 q.2 >>= fun d =>
      let f := e.sign * a * (r * d)
      if e.emission then .ok f else l.prof.val x q.1 q.2 >>= fun v => .ok (c * f - a * dc * v)) e.lines 0

/-- The loops of `GetElementAmplitude` and `GetElementError` (element.cpp:529-535, 547-553): `f` is the fitted amplitude or its error. -/
noncomputable def firstNominal (f : Line → Option ℝ) : List Line → Option ℝ
  | [] => none
  | l :: ls => if l.out = false ∧ l.nominal ≠ 0 then (f l).map (· / l.nominal) else firstNominal f ls

/-- `GetElementAmplitude` (element.cpp:525-536). -/
noncomputable def eltAmp (e : Elt) : Option ℝ := if e.outside then none else firstNominal (·.amp) e.lines

/-- `GetElementError` (element.cpp:542-554). -/
noncomputable def eltErr (e : Elt) : Option ℝ := if e.outside then none else firstNominal (·.std) e.lines

end EltDeriv
end Amazed
