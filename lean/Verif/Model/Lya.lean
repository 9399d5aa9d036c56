import Verif.Model.LmSearch

set_option linter.unusedVariables false

/-! # Profile of Lyman alpha and of the lines under it

`CLineRatioManager::setLyaProfile`, `setAsymProfile`, `setSymIgmProfile`, `setPassMode` (lineratiomanager.cpp), `CAbstractFitter::initFit`, `resetSupport`, `fitLyaProfile`
(abstractfitter.cpp) and the profile classes (lineprofile.h, lineprofileASYM*.cpp, lineprofileSYMIGM.cpp), for what they hold of the profiles: kind and parameters.

The values of a profile are in Model/LineProfile.lean and Model/SymIgm.lean, the searches of the parameters in Model/LmSearch.lean. -/

namespace Amazed
namespace Lya

variable {K : Type} [Field K] [LinearOrder K] [IsStrictOrderedRing K]

/-- `TAsymParams` (lineprofile.h:60-67). -/
structure AsymP (K : Type) where
  sigma : K
  alpha : K
  delta : K
deriving DecidableEq, Repr

/-- A profile: kind, number of sigmas of the support and parameters; `cent` is `m_centeringMethod`, `none` is `undefIdx` and the NaN redshift (lineprofile.h:84-130,
lineprofileASYM.h, lineprofileASYMFIT.h, lineprofileSYMIGM.h). -/
inductive Prof (K : Type)
  | sym (ns : K)
  | lor (ns : K)
  | asym (ns : K) (p : AsymP K) (cent : String)
  | asymFit (ns : K) (p : AsymP K) (cent : String)
  | symIgm (ns : K) (idx : Option Nat) (z : Option K) (fit : Bool)
deriving DecidableEq, Repr

/-- `isAsym` (lineprofile.h:116, lineprofileASYM.h:84). -/
def Prof.isAsym : Prof K → Bool
  | .asym .. => true
  | .asymFit .. => true
  | _ => false

/-- `isAsymFit` (lineprofile.h:117, lineprofileASYMFIT.h:59). -/
def Prof.isAsymFit : Prof K → Bool
  | .asymFit .. => true
  | _ => false

/-- `isAsymFixed` (lineprofile.h:118, lineprofileASYM.h:85, lineprofileASYMFIT.h:60). -/
def Prof.isAsymFixed : Prof K → Bool
  | .asym .. => true
  | _ => false

/-- `isSymIgm` (lineprofile.h:119, lineprofileSYMIGM.h:72). -/
def Prof.isSymIgm : Prof K → Bool
  | .symIgm .. => true
  | _ => false

/-- `isSymIgmFit` (lineprofile.h:120, lineprofileSYMIGM.h:73). -/
def Prof.isSymIgmFit : Prof K → Bool
  | .symIgm _ _ _ fit => fit
  | _ => false

/-- `SetAsymParams`: only the ASYMFIT profile takes them (lineprofile.h:123, lineprofileASYMFIT.cpp:59-69). -/
def Prof.setAsym (q : AsymP K) : Prof K → Prof K
  | .asymFit ns _ c => .asymFit ns q c
  | p => p

/-- `SetSymIgmParams` (lineprofile.h:124, lineprofileSYMIGM.cpp:156-159). -/
def Prof.setIgm (idx : Option Nat) (z : Option K) : Prof K → Prof K
  | .symIgm ns _ _ fit => .symIgm ns idx z fit
  | p => p

/-- `SetSymIgmFit` (lineprofile.h:121, lineprofileSYMIGM.h:76). -/
def Prof.setIgmFit (b : Bool) : Prof K → Prof K
  | .symIgm ns i z _ => .symIgm ns i z b
  | p => p

/-- `resetParams` (lineprofile.h:125, lineprofileASYMFIT.cpp:71-75, lineprofileSYMIGM.cpp:161-164). -/
def Prof.reset : Prof K → Prof K
  | .asymFit ns _ c => .asymFit ns ⟨2, 0, 0⟩ c
  | .symIgm ns i z fit => if fit then .symIgm ns none none fit else .symIgm ns i z fit
  | p => p

/-- `cloneToASYM` (lineprofileASYMFIT.cpp:55-57, lineprofileASYM.cpp:61-64). -/
def Prof.toASYM : Prof K → Prof K
  | .asymFit ns p c => .asym ns p c
  | p => p

/-- `cloneToASYMFIT` (lineprofileASYM.cpp:66-68, lineprofileASYMFIT.cpp:51-53). -/
def Prof.toASYMFIT : Prof K → Prof K
  | .asym ns p c => .asymFit ns p c
  | p => p

/-- The lines of an element (identifier and profile) and `m_asymLineIndices`. -/
structure Elt (K : Type) where
  lines : List (Nat × Prof K)
  asymIdx : List Nat
deriving DecidableEq

/-- The constructor (elementparam.cpp:91-94). -/
def Elt.new (lines : List (Nat × Prof K)) : Elt K :=
  ⟨lines, (List.range lines.length).filter fun k => match lines[k]? with
    | some l => l.2.isAsym || l.2.isSymIgm
    | none => false⟩

/-- A change of all the lines of `m_asymLineIndices` (elementparam.h:128-158, 237-240). -/
def Elt.onAsym (f : Prof K → Prof K) (e : Elt K) : Elt K := { e with lines := e.lines.mapIdx fun k l => if k ∈ e.asymIdx then (l.1, f l.2) else l }

/-- `getIgmLinesIndices` (lmeltlistvector.cpp:239-249). -/
def igmIndices (es : List (Elt K)) : List (Nat × List Nat) :=
  (es.zipIdx.filter fun q => !q.1.asymIdx.isEmpty).map fun q => (q.2, q.1.asymIdx)

/-- The options of Lyman alpha in effect (lineratiomanager.h). -/
structure Force where
  disable : Bool
  fit : Bool
deriving DecidableEq

/-- `setPassMode` (lineratiomanager.cpp:187-204); `opt` are `lya_forcedisablefit` and `lya_forcefit`. -/
def setPassMode (opt : Force) (pass : Nat) (f : Force) : Force :=
  if pass = 1 then ⟨true, false⟩ else if pass = 2 then opt else if pass = 3 then { f with disable := false } else f

/-- The profile taken from the catalogue (lineratiomanager.cpp:137-148). -/
def convert (f : Force) (p : Prof K) : Prof K :=
  if f.disable = true ∧ p.isAsymFit = true then p.toASYM else if f.fit = true ∧ p.isAsymFixed = true then p.toASYMFIT else p

/-- `setAsymProfile` (lineratiomanager.cpp:129-151); a line that is not in the catalogue makes `at` throw. -/
def setAsymProfile (f : Force) (cat : Nat → Option (Prof K)) (i k : Nat) (es : List (Elt K)) : Res (List (Elt K)) :=
  Res.at_ es i >>= fun e => Res.at_ e.lines k >>= fun l =>
  match cat l.1 with
  | none => .throw .STD_OUT_OF_RANGE
  | some p => .ok (es.set i { e with lines := e.lines.set k (l.1, convert f p) })

/-- `setSymIgmProfile` (lineratiomanager.cpp:153-171): `cont` is the index fitted with the continuum, if a template that is not null is fitted. -/
def Elt.setSymIgm (cont : Option (Option Nat)) (z : K) (e : Elt K) : Elt K := match cont with
  | some idx => (e.onAsym (Prof.setIgmFit false)).onAsym (Prof.setIgm idx (some z))
  | none => e.onAsym (Prof.setIgmFit true)

/-- The lines of a list whose profile meets a condition. -/
def Elt.filterIdx (e : Elt K) (c : Nat → Prof K → Bool) (l : List Nat) : List Nat := l.filter fun k => match e.lines[k]? with
  | some q => c k q.2
  | none => false

/-- The body of the loop on SYMIGM profiles (lineratiomanager.cpp:110-125). -/
def symIgmStep (cont : Option (Option Nat)) (z : K) (es : List (Elt K)) (q : Nat × List Nat) : List (Elt K) :=
  es.modify q.1 fun e => if (e.filterIdx (fun _ p => p.isSymIgm) q.2).isEmpty then e else e.setSymIgm cont z

/-- The first branch of `setLyaProfile` (lineratiomanager.cpp:98-108). -/
def asymStep (f : Force) (cat : Nat → Option (Prof K)) (es : List (Elt K)) (q : Nat × List Nat) : Res (List (Elt K)) :=
  Res.at_ q.2 0 >>= fun k => Res.at_ es q.1 >>= fun e => Res.at_ e.lines k >>= fun l =>
  if l.2.isAsym then setAsymProfile f cat q.1 k es else .ok es

/-- `setLyaProfile` (lineratiomanager.cpp:91-127). -/
def setLyaProfile (f : Force) (cat : Nat → Option (Prof K)) (cont : Option (Option Nat)) (z : K) (es : List (Elt K)) : Res (List (Elt K)) :=
  match igmIndices es with
  | [] => .ok es
  | q :: qs => asymStep f cat es q >>= fun es' => .ok ((q :: qs).foldl (symIgmStep cont z) es')

/-- What the fit takes from outside: flags of the elements and lines, parameters tried by `fitAsymParameters` and its result, number of igm indices and result of
`fitAsymIGMCorrection` (Model/LmSearch.lean). -/
structure Search (K : Type) where
  outE : Nat → Bool
  out : Nat → Nat → Bool
  trials : List (AsymP K)
  best : AsymP K
  count : Nat
  igm : List (Nat × List Nat) → Option Nat

/-- `fitAsymParameters` and `SetAsymfitParams` (abstractfitter.cpp:218-226, 471-478): all the parameters tried are set, then the best ones. -/
def fitAsym (s : Search K) (es : List (Elt K)) (q : Nat × List Nat) : Res (List (Elt K)) :=
  Res.at_ q.2 0 >>= fun k => Res.at_ es q.1 >>= fun e => Res.at_ e.lines k >>= fun l =>
  if l.2.isAsymFit = true ∧ s.out q.1 k = false then
    .ok (es.modify q.1 fun e => (s.trials.foldl (fun e p => e.onAsym (Prof.setAsym p)) e).onAsym (Prof.setAsym s.best))
  else .ok es

/-- The lines whose igm index is to be fitted (abstractfitter.cpp:230-249). -/
def toFit (s : Search K) (es : List (Elt K)) (q : Nat × List Nat) : Option (Nat × List Nat) :=
  if s.outE q.1 then none
  else match es[q.1]? with
    | none => none
    | some e =>
      let l := e.filterIdx (fun k p => p.isSymIgmFit && !s.out q.1 k) q.2
      if l.isEmpty then none else some (q.1, l)

/-- The fit of the igm index (abstractfitter.cpp:251-258, 523-528): all the indices are tried on each element, then the best one is set. -/
def fitIgm (s : Search K) (z : K) (es : List (Elt K)) (l : List (Nat × List Nat)) : List (Elt K) :=
  l.foldl (fun es q => es.modify q.1 fun e =>
    ((List.range s.count).foldl (fun e i => e.onAsym (Prof.setIgm (some i) (some z))) e).onAsym (Prof.setIgm (s.igm l) (some z))) es

/-- `fitLyaProfile` (abstractfitter.cpp:200-259). -/
def fitLyaProfile (s : Search K) (z : K) (es : List (Elt K)) : Res (List (Elt K)) :=
  match igmIndices es with
  | [] => .ok es
  | q :: qs => fitAsym s es q >>= fun es' => .ok (fitIgm s z es' ((q :: qs).filterMap (toFit s es')))

/-- `initFit` (abstractfitter.cpp:166-177) for the profiles: `resetAsymfitParams` (lmeltlistvector.cpp:283-287) and the fit. -/
def initFit (s : Search K) (z : K) (es : List (Elt K)) : Res (List (Elt K)) := fitLyaProfile s z (es.map fun e => e.onAsym Prof.reset)

/-- The inputs of a fit at one redshift. -/
structure In (K : Type) where
  force : Force
  cat : Nat → Option (Prof K)
  cont : Option (Option Nat)
  z : K
  s : Search K

/-- The profiles of a fit: `CLineRatioManager::init` (lineratiomanager.cpp:173-179) then `CAbstractFitter::initFit`. -/
def run (x : In K) (es : List (Elt K)) : Res (List (Elt K)) := setLyaProfile x.force x.cat x.cont x.z es >>= fun es => initFit x.s x.z es

end Lya
end Amazed
