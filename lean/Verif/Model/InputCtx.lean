import Verif.Model.Meiksin

/-! # Initialisation of the inputs of a process (`src/lib/processflow/inputcontext.cpp`, `Init` and `resetSpectrumSpecific`;
`src/lib/spectrum/template/catalog.cpp`, `InitContinuumRemoval` and `SetIsmIgmCorrection`)

One context serves all the spectra of a process, one after the other: it is reset, filled and initialised for each
(`pylibamazed/python/pylibamazed/ProcessFlow.py:196-228`). The template catalogue and the IGM object are those of the
calibration library, shared by all of them. The spectra and the operations on them are parameters (clamping is C35, the
validation C51). `Init` is modelled up to the logarithmic resampling (inputcontext.cpp:176-225); the resampling is C62, the
orthogonalisation C54. -/

namespace Amazed
namespace InputCtx

/-- What `Init` uses of a spectrum: `getObsID`, `GetSpectralAxis().ClampLambdaRange`, `ValidateSpectrum(range, correct)`
(which may correct it), `InitSpectrumContinuum`, and `GetLSF` (`none` for null). -/
structure Ops (S K : Type) where
  obs : S → String
  clamp : S → Range K → Res (Range K)
  validate : S → Range K → Bool → Res S
  cont : S → Res S
  lsf : S → Option (Meiksin.LsfFun K)

/-- The parameters read: the continuum removal of the templates, `autoCorrectInput`, `lambdaRange` (`none`) and
`lambdaRange.<id>` (`some id`), `lsf.lsfType == "fromSpectrumData"`, `HasTplIsmExtinction` and `HasTplIgmExtinction`. -/
structure Prm (K : Type) where
  removal : String × K × Bool
  auto : Bool
  range : Option String → Res (Range K)
  fromData : Bool
  ism : String → Bool
  igm : String → Bool

/-- What is set on a template: whether it has the two extinction objects, and its continuum removal. -/
structure Tp (K : Type) where
  ism : Bool
  igm : Bool
  removal : Option (String × K × Bool)
deriving DecidableEq

/-- The original templates of the catalogue, `GetList(0, 0)`, by category; null templates are `none`. -/
abbrev Cat (K : Type) := List (String × List (Option (Tp K)))

/-- The members of the context (inputcontext.h:177-199) modelled: the spectra, the ranges, the clamped ranges, the IGM object
(`none` for null) and the template catalogue. -/
structure Ctx (S K : Type) where
  spectra : List S
  ranges : List (Range K)
  clamped : List (Range K)
  igm : Option (Meiksin.T K)
  cat : Option (Cat K)

section
variable {S K : Type}

/-- `resetSpectrumSpecific` (inputcontext.cpp:244-262). -/
def reset (c : Ctx S K) : Ctx S K := { c with spectra := [], ranges := [], clamped := [], cat := none }

/-- A change of each template of a list; a null template is dereferenced. -/
def mapTpl (f : Tp K → Tp K) : List (Option (Tp K)) → Res (List (Option (Tp K)))
  | [] => .ok []
  | none :: _ => .ub
  | some t :: l => mapTpl f l >>= fun l' => .ok (some (f t) :: l')

/-- A change of each list of templates. -/
def mapCat (f : String → List (Option (Tp K)) → Res (List (Option (Tp K)))) : Cat K → Res (Cat K)
  | [] => .ok []
  | (n, l) :: r => f n l >>= fun l' => mapCat f r >>= fun r' => .ok ((n, l') :: r')

/-- `InitContinuumRemoval` (catalog.cpp:230-246). -/
def initRemoval (p : Prm K) (c : Cat K) : Res (Cat K) := mapCat (fun _ => mapTpl fun t => { t with removal := some p.removal }) c

/-- The first template of a list has no dust object (`CalzettiInitFailed`); false for an empty list. -/
def noIsm : List (Option (Tp K)) → Res Bool
  | [] => .ok false
  | none :: _ => .ub
  | some t :: _ => .ok (!t.ism)

/-- The first template of a list has no IGM object (`MeiksinInitFailed`); false for an empty list. -/
def noIgm : List (Option (Tp K)) → Res Bool
  | [] => .ok false
  | none :: _ => .ub
  | some t :: _ => .ok (!t.igm)

/-- The dust object given to the templates of a category (catalog.cpp:255-261). -/
def giveIsm (b : Bool) (l : List (Option (Tp K))) : Res (List (Option (Tp K))) :=
  if b then noIsm l >>= fun q => if q then mapTpl (fun t => { t with ism := true }) l else .ok l else .ok l

/-- The IGM object given to the templates of a category (catalog.cpp:262-267). -/
def giveIgm (b : Bool) (l : List (Option (Tp K))) : Res (List (Option (Tp K))) :=
  if b then noIgm l >>= fun q => if q then mapTpl (fun t => { t with igm := true }) l else .ok l else .ok l

/-- `SetIsmIgmCorrection` (catalog.cpp:248-270); the extinction objects given are not null. -/
def setExt (p : Prm K) (c : Cat K) : Res (Cat K) := mapCat (fun n l => giveIsm (p.ism n) l >>= giveIgm (p.igm n)) c

/-- The loop that reads the ranges (inputcontext.cpp:187-201): pushed after those already there. -/
def readRanges (o : Ops S K) (p : Prm K) (several : Bool) : List S → List (Range K) → Res (List (Range K))
  | [], r => .ok r
  | s :: l, r => p.range (if several then some (o.obs s) else none) >>= fun x => readRanges o p several l (r ++ [x])

/-- The loop that clamps the ranges (inputcontext.cpp:204-208), over spectra and ranges of the same number. -/
def clampAll (o : Ops S K) : List (S × Range K) → Res (List (Range K))
  | [] => .ok []
  | (s, r) :: l => o.clamp s r >>= fun x => clampAll o l >>= fun xs => .ok (x :: xs)

variable [Field K] [LinearOrder K] [FloorRing K]

/-- The convolution of the IGM curves for a spectrum (inputcontext.cpp:216-219). The IGM object and the line spread function
are dereferenced. -/
def convolveFor (o : Ops S K) (p : Prm K) (s : S) (r : Range K) : Option (Meiksin.T K) → Res (Meiksin.T K)
  | none => .ub
  | some t =>
    if t.convolved = false ∨ p.fromData = true then
      match o.lsf s with
      | none => .ub
      | some f => Meiksin.convolve t f r
    else .ok t

/-- One spectrum in the loop of validation (inputcontext.cpp:213-219): the spectrum, and the IGM object. -/
def valOne (o : Ops S K) (p : Prm K) (s : S) (r : Range K) (g : Option (Meiksin.T K)) : Res (S × Meiksin.T K) :=
  o.validate s r p.auto >>= fun s1 => o.cont s1 >>= fun s2 => convolveFor o p s2 r g >>= fun t => .ok (s2, t)

/-- The loop of validation (inputcontext.cpp:211-220): the IGM object is shared, so what was done to it stays when a later
spectrum is refused. (What a refused convolution leaves in it is not modelled: nothing.) -/
def valAll (o : Ops S K) (p : Prm K) : List (S × Range K) → Option (Meiksin.T K) → Option (Meiksin.T K) × Res (List S)
  | [], g => (g, .ok [])
  | (s, r) :: l, g =>
    match valOne o p s r g with
    | .ok (s2, t) => ((valAll o p l (some t)).1, (valAll o p l (some t)).2 >>= fun ss => .ok (s2 :: ss))
    | .throw e => (g, .throw e)
    | .ub => (g, .ub)

/-- `Init` (inputcontext.cpp:176-225). The loops over several vectors need the same sizes. The context is also given when
the call throws: only the shared objects matter then, as the context is reset before its next use. -/
def init (o : Ops S K) (p : Prm K) (c : Ctx S K) : Ctx S K × Res Unit :=
  match c.cat with
  | none => (c, .ub)
  | some cat =>
    match initRemoval p cat with
    | .throw e => (c, .throw e)
    | .ub => (c, .ub)
    | .ok cat1 =>
      match readRanges o p (decide (1 < c.spectra.length)) c.spectra c.ranges with
      | .throw e => ({ c with cat := some cat1 }, .throw e)
      | .ub => ({ c with cat := some cat1 }, .ub)
      | .ok rs =>
        if rs.length ≠ c.spectra.length then ({ c with cat := some cat1 }, .ub)
        else
          match clampAll o (c.spectra.zip rs) with
          | .throw e => ({ c with cat := some cat1, ranges := rs }, .throw e)
          | .ub => ({ c with cat := some cat1, ranges := rs }, .ub)
          | .ok cl =>
            let v := valAll o p (c.spectra.zip rs) c.igm
            match v.2 with
            | .throw e => ({ c with cat := some cat1, ranges := rs, clamped := cl, igm := v.1 }, .throw e)
            | .ub => ({ c with cat := some cat1, ranges := rs, clamped := cl, igm := v.1 }, .ub)
            | .ok ss =>
              match setExt p cat1 with
              | .throw e => (⟨ss, rs, cl, v.1, some cat1⟩, .throw e)
              | .ub => (⟨ss, rs, cl, v.1, some cat1⟩, .ub)
              | .ok cat2 => (⟨ss, rs, cl, v.1, some cat2⟩, .ok ())

/-- What is processed: the parameters and the observations of one object. -/
structure Job (S K : Type) where
  prm : Prm K
  spectra : List S

/-- The processing of one object (ProcessFlow.py:196-228) with the shared IGM object and catalogue: the context is reset,
given the shared objects and the spectra, and initialised. -/
def initOne (o : Ops S K) (j : Job S K) (igm : Option (Meiksin.T K)) (cat : Cat K) (c : Ctx S K) : Ctx S K × Res Unit :=
  init o j.prm { reset c with spectra := j.spectra, igm := igm, cat := some cat }

/-- The catalogue is still there. -/
def catOf (c : Ctx S K) (d : Cat K) : Cat K := c.cat.getD d

/-- The processing of a list of objects, one after the other, exceptions being reported and the next object processed. -/
def process (o : Ops S K) : List (Job S K) → Option (Meiksin.T K) → Cat K → Ctx S K → Ctx S K
  | [], _, _, c => c
  | j :: js, g, d, c =>
    process o js (initOne o j g d c).1.igm (catOf (initOne o j g d c).1 d) (initOne o j g d c).1

end
end InputCtx
end Amazed
