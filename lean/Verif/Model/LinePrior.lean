import Verif.Model.TplRatio

/-!
# Prior on the amplitudes of the lines, for a ratio catalog

Models `CTplratioManager::computelogLinePriorMerit` and `computeMerit` (`linemodel/tplratiomanager.cpp:483-547`).

An element is the list of its lines, with the flags over all spectra. A NaN is `none`; a quotient by a null nominal amplitude other than
`0 / 0` is `ub`.
-/

set_option autoImplicit true
set_option linter.unusedVariables false
namespace Amazed
namespace LinePrior

variable {K : Type} [Field K] [LinearOrder K] [IsStrictOrderedRing K]

/-- What is read of a line: fitted amplitude, `isOutsideLambdaRangeLine`, nominal amplitude. -/
structure Line (K : Type) where
  amp : Option K
  out : Bool
  nom : K
deriving DecidableEq

/-- `CPriorHelper::SPriorTZE` (priorhelper.h), the fields read here. -/
structure Prior (K : Type) where
  betaTE : K
  logTE : K
  betaA : K
  logA : K
  betaZ : K
  logZ : K
  mean : K
  sigma : K
deriving DecidableEq

/-- The loop on the lines of an element (tplratiomanager.cpp:504-513): the amplitude of the element, if a line gives it. -/
def eltAmp : List (Line K) → Res (Option (Option K))
  | [] => .ok none
  | l :: r =>
    if Amp.vLe l.amp (some 0) || l.out then eltAmp r
    else Amp.vDiv l.amp (some l.nom) >>= fun a => .ok (some a)

/-- What an element adds (tplratiomanager.cpp:515-519). -/
def term (p : Prior K) (a : Option K) : Option K :=
  a.map fun a => p.betaA * (a - p.mean) * (a - p.mean) / (p.sigma * p.sigma)

/-- The new value of `_meritprior` after an element (tplratiomanager.cpp:514-520). -/
def addElt (p : Prior K) (m : Option K) : Option (Option K) → Option K
  | none => m
  | some a => Amp.vAdd m (term p a)

/-- The loop on the elements (tplratiomanager.cpp:502-522). -/
def elts (p : Prior K) : List (List (Line K)) → Option K → Res (Option K)
  | [], m => .ok m
  | e :: r, m => eltAmp e >>= fun a => elts p r (addElt p m a)

/-- The part without amplitudes (tplratiomanager.cpp:491-496). -/
def base (p : Prior K) : K := -2 * p.betaTE * p.logTE + -2 * p.betaA * p.logA + -2 * p.betaZ * p.logZ

/-- `computelogLinePriorMerit` (tplratiomanager.cpp:483-525). -/
def linePrior (ps : List (Prior K)) (i : Nat) (es : List (List (Line K))) : Res (Option K) :=
  if ps.isEmpty then .ok (some 0)
  else Res.at_ ps i >>= fun p => if p.sigma ≤ 0 then .ok (some (base p)) else elts p es (some (base p))

/-- The test of `computeMerit` (tplratiomanager.cpp:540-544) on the entry of the catalog; a comparison with a NaN is false. -/
def record (src : TplRatio.Src) (m : WithTop K) (prior : Option K) (e : TplRatio.Entry K) : TplRatio.Entry K :=
  match prior with
  | none => e
  | some q => if m + (q : WithTop K) < e.merit + (e.prior : WithTop K) then ⟨m, q, some src⟩ else e

/-- `computeMerit` (tplratiomanager.cpp:527-546) for catalog `i`: the entry of the catalog afterwards. -/
def computeMerit (ps : List (Prior K)) (src : TplRatio.Src) (es : List (List (Line K))) (m : WithTop K) (e : TplRatio.Entry K) :
    Res (TplRatio.Entry K) :=
  linePrior ps src.2 es >>= fun q => .ok (record src m q e)

end LinePrior
end Amazed
