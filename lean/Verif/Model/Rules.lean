import Verif.Model.Amp

set_option linter.unusedVariables false

/-! # Amplitude rules of the line model

`RedshiftLibrary/src/lib/line/rule.cpp`, `rule2singlelinesamplitude.cpp`, `ruleOIIRatioRange.cpp`,
`ruleStrongHigherThanWeak.cpp`, `ruleSuperStrongHighest.cpp`, `regulament.cpp` and
`src/lib/linemodel/rulesmanager.cpp` (66-96). The text of the log messages is not modelled; a rule reports whether it
wrote a message. -/

namespace Amazed
namespace Rules
open Amp

variable {K : Type} [Field K] [LinearOrder K] [IsStrictOrderedRing K]

/-- Elements after a rule, and whether a message was logged. -/
abbrev Out (K : Type) := List (Elt K) × Bool

/-- `CRule2SingleLinesAmplitude::Correct` (rule2singlelinesamplitude.cpp:70-188). -/
def twoLines (t : LType) (tagA tagB : String) (coeff : K) (es : List (Elt K)) : Res (Out K) :=
  match findElementIndex es tagA t with
  | none => .ok (es, false)
  | some (ia, la) =>
    Res.at_ es ia >>= fun eA =>
    match findElementIndex es tagB t with
    | none => .ok (es, false)
    | some (ib, lb) =>
      Res.at_ es ib >>= fun eB =>
      if eA.lines.length > 1 ∨ eB.lines.length > 1 ∨ ia = ib then .ok (es, false)
      else if eA.outside then .ok (es, false)
      else
        Res.at_ eA.fa la >>= fun ampA =>
        Res.at_ eB.fa lb >>= fun ampB =>
        if vLe ampA (some 0) && vLe ampB (some 0) then .ok (es, false)
        else
          let maxB := vMul (some coeff) ampA
          if vEq maxB (vMin maxB ampB) then
            limit eB lb maxB >>= fun r => .ok (es.set ib r.1, true)
          else .ok (es, false)

/-- Weight `1 / (er * er * ...)`, zero when the error is zero (ruleOIIRatioRange.cpp:136-142). -/
def weight (er : Option K) (r2 : K) : Res (Option K) :=
  if vEq er (some 0) then .ok (some 0) else vDiv (some 1) (vMul (vMul er er) (some r2))

/-- The correction of `CRuleRatioRange::Correct` (ruleOIIRatioRange.cpp:135-158): element `i1`, too high, and `i2`. -/
def ratioCorrect (R : K) (es : List (Elt K)) (i1 i2 : Nat) (amp1 er1 amp2 er2 : Option K) : Res (Out K) :=
  weight er1 1 >>= fun w1 =>
  weight er2 (R * R) >>= fun w2 =>
  vDiv (vAdd (vMul amp1 w1) (vMul (vMul amp2 w2) (some R))) (vAdd w1 w2) >>= fun c1 =>
  vDiv c1 (some R) >>= fun c2 =>
  Res.at_ es i1 >>= fun e1 =>
  setAmplitude e1 c1 er1 >>= fun e1' =>
  let es' := es.set i1 e1'
  Res.at_ es' i2 >>= fun e2 =>
  setAmplitude e2 c2 er2 >>= fun e2' =>
  .ok (es'.set i2 e2', true)

/-- `CRuleRatioRange::Correct` (ruleOIIRatioRange.cpp:76-159). -/
def ratioRange (t : LType) (tagA tagB : String) (R : K) (es : List (Elt K)) : Res (Out K) :=
  match findElementIndex es tagA t with
  | none => .ok (es, false)
  | some (ia, la) =>
    Res.at_ es ia >>= fun eA =>
    if eA.lines.length < 1 then .ok (es, false)
    else match findElementIndex es tagB t with
    | none => .ok (es, false)
    | some (ib, lb) =>
      Res.at_ es ib >>= fun eB =>
      if eB.lines.length < 1 then .ok (es, false)
      else if ia = ib then .ok (es, false)
      else if eA.outside ∨ eB.outside then .ok (es, false)
      else
        Res.at_ eA.fa la >>= fun ampA => Res.at_ eA.fastd la >>= fun erA =>
        Res.at_ eB.fa lb >>= fun ampB => Res.at_ eB.fastd lb >>= fun erB =>
        if vGt (vAbs ampA) (vAbs (vMul ampB (some R))) then ratioCorrect R es ia ib ampA erA ampB erB
        else if vGt (vAbs ampB) (vAbs (vMul ampA (some R))) then ratioCorrect R es ib ia ampB erB ampA erA
        else .ok (es, false)

/-- State of the search of the lowest strong line: amplitude (`none`: infinity), element and line. -/
abbrev Low (K : Type) := Option (K × Nat × Nat)

/-- Loop over the lines of an element in `FindLowestStrongLineIndex` (ruleStrongHigherThanWeak.cpp:227-240). -/
def lowLines (e : Elt K) (ie : Nat) (s : Low K) : Res (Low K) :=
  Res.foldN (fun i s =>
    Res.at_ e.lines i >>= fun l =>
    Res.at_ e.outsideLine i >>= fun o =>
    if o then .ok s
    else if l.force = .strong then
      Res.at_ e.fa i >>= fun a =>
      match a, s with
      | some x, none => .ok (some (x, ie, i))
      | some x, some (m, ie0, i0) => if x < m then .ok (some (x, ie, i)) else .ok s
      | none, _ => .ok s
    else .ok s) 0 e.lines.length s

/-- `FindLowestStrongLineIndex` (ruleStrongHigherThanWeak.cpp:214-243). -/
def lowestStrong (t : LType) (es : List (Elt K)) : Res (Low K) :=
  Res.foldN (fun ie s => Res.at_ es ie >>= fun e => if e.type = t then lowLines e ie s else .ok s) 0 es.length none

/-- Loop of `correctLineModelElement` (ruleStrongHigherThanWeak.cpp:103-119). -/
def limitWeak (e : Elt K) (lim : Option K) : Res (Elt K × Bool) :=
  Res.foldN (fun i s =>
    Res.at_ s.1.outsideLine i >>= fun o =>
    if o then .ok s
    else Res.at_ s.1.lines i >>= fun l =>
      if l.force = .weak then limit s.1 i lim >>= fun r => .ok (r.1, s.2 || r.2) else .ok s) 0 e.lines.length (e, false)

/-- `CRuleStrongHigherThanWeak::Correct` (ruleStrongHigherThanWeak.cpp:69-101) and `maxAmplitude` (121-155). -/
def strongWeak (t : LType) (es : List (Elt K)) : Res (Out K) :=
  lowestStrong t es >>= fun s =>
  match s with
  | none => .ok (es, false)
  | some (_, ie, il) =>
    Res.at_ es ie >>= fun e =>
    Res.at_ e.fastd il >>= fun er =>
    Res.at_ e.fa il >>= fun amp =>
    if er = none then .throw .INTERNAL_ERROR
    else if amp = none then .throw .INTERNAL_ERROR
    else
      Res.foldN (fun k s => Res.at_ s.1 k >>= fun e =>
        if e.type = t then limitWeak e (vAdd amp er) >>= fun r => .ok (s.1.set k r.1, s.2 || r.2) else .ok s)
        0 es.length (es, false)

/-- `FindHighestSuperStrongLineAmp`, loop over the lines of an element (ruleSuperStrongHighest.cpp:154-176): the
largest amplitude (initially -1) and its error. -/
def superLines (t : LType) (tags : List String) (e : Elt K) (s : K × Option K) : Res (K × Option K) :=
  Res.foldN (fun i s =>
    Res.at_ e.lines i >>= fun l =>
    if l.force ≠ .strong ∨ e.type ≠ t then .ok s
    else Res.at_ e.outsideLine i >>= fun o =>
      if o ∨ l.name ∉ tags then .ok s
      else Res.at_ e.fa i >>= fun a => Res.at_ e.fastd i >>= fun er =>
        match a with
        | some x => if s.1 < x then .ok (x, er) else .ok s
        | none => .ok s) 0 e.lines.length s

/-- `FindHighestSuperStrongLineAmp` (ruleSuperStrongHighest.cpp:150-178). -/
def highestSuper (t : LType) (tags : List String) (es : List (Elt K)) : Res (K × Option K) :=
  Res.foldN (fun ie s => Res.at_ es ie >>= fun e => superLines t tags e s) 0 es.length (-1, some (-1))

/-- Inner loop of `CRuleSuperStrong::Correct` (ruleSuperStrongHighest.cpp:87-118). -/
def limitOthers (t : LType) (tags : List String) (e : Elt K) (maxB : Option K) : Res (Elt K × Bool) :=
  Res.foldN (fun i s =>
    Res.at_ s.1.lines i >>= fun l =>
    if s.1.type ≠ t then .ok s
    else Res.at_ s.1.outsideLine i >>= fun o =>
      if o ∨ l.name ∈ tags then .ok s
      else Res.at_ s.1.fa i >>= fun ampB =>
        if vEq maxB ampB = true ∨ vEq maxB (vMin maxB ampB) = false then .ok s
        else limit s.1 i maxB >>= fun r => .ok (r.1, true)) 0 e.lines.length (e, false)

/-- `CRuleSuperStrong::Correct` (ruleSuperStrongHighest.cpp:74-120). -/
def superStrong (t : LType) (tags : List String) (es : List (Elt K)) : Res (Out K) :=
  highestSuper t tags es >>= fun s =>
  if s.1 = -1 then .ok (es, false)
  else Res.foldN (fun k o => Res.at_ o.1 k >>= fun e =>
      limitOthers t tags e (vAdd (some s.1) s.2) >>= fun r => .ok (o.1.set k r.1, o.2 || r.2)) 0 es.length (es, false)

/-- The rules that can be in the regulament. -/
inductive Kind (K : Type) where
  | two (t : LType) (a b : String) (c : K)
  | ratio (t : LType) (a b : String) (c : K)
  | strongWeak (t : LType)
  | superStrong (t : LType) (tags : List String)

/-- A rule object: `Name` is fixed by the class (`SetUp` of each rule). -/
structure Rule (K : Type) where
  enabled : Bool
  kind : Kind K

/-- `Name` of a rule (rule2singlelinesamplitude.cpp:55, ruleOIIRatioRange.cpp:56, ruleStrongHigherThanWeak.cpp:52,
ruleSuperStrongHighest.cpp:50). -/
def Kind.name : Kind K → String
  | .two .. => "balmersingle"
  | .ratio .. => "ratioRange"
  | .strongWeak .. => "strongWeak"
  | .superStrong .. => "superstrong"

/-- `Correct` of a rule. -/
def Kind.correct : Kind K → List (Elt K) → Res (Out K)
  | .two t a b c => twoLines t a b c
  | .ratio t a b c => ratioRange t a b c
  | .strongWeak t => Rules.strongWeak t
  | .superStrong t tags => Rules.superStrong t tags

/-- `CRule::Apply` (rule.cpp:50-58); `Check` returns false in every rule. -/
def Rule.apply (r : Rule K) (es : List (Elt K)) : Res (Out K) :=
  if r.enabled = false then .ok (es, false) else r.kind.correct es

/-- `CRegulament::Apply` (regulament.cpp:57-65): the elements, and the names of the rules that logged a correction. -/
def applyAll : List (Rule K) → List (Elt K) → Res (List (Elt K) × List String)
  | [], es => .ok (es, [])
  | r :: rs, es => r.apply es >>= fun o => applyAll rs o.1 >>= fun p =>
      .ok (p.1, if o.2 then r.kind.name :: p.2 else p.2)

/-- The rules pushed by `CreateRulesFromJSONFiles` (regulament.cpp:72-168), with the line tags of linetags.h. -/
def table : List (Rule K) :=
  [⟨true, .two .emission "Halpha" "Hbeta" (1 / (286 / 100) * (11 / 10))⟩,
   ⟨true, .two .emission "Hbeta" "Hgamma" (47 / 100 * (11 / 10))⟩,
   ⟨true, .two .emission "Hgamma" "Hdelta" (11 / 10)⟩,
   ⟨true, .two .emission "Hdelta" "H8" (11 / 10)⟩,
   ⟨true, .two .emission "H8" "H9" (11 / 10)⟩,
   ⟨true, .two .emission "H9" "H10" (11 / 10)⟩,
   ⟨true, .two .emission "H10" "H11" (11 / 10)⟩,
   ⟨true, .two .emission "HbetaA" "HgammaA" (11 / 10)⟩,
   ⟨true, .two .emission "HgammaA" "HdeltaA" (11 / 10)⟩,
   ⟨true, .two .emission "HdeltaA" "H8A" (11 / 10)⟩,
   ⟨true, .two .emission "H8A" "H9A" (11 / 10)⟩,
   ⟨true, .two .emission "H9A" "H10A" (11 / 10)⟩,
   ⟨true, .two .emission "H10A" "H11A" (11 / 10)⟩,
   ⟨true, .ratio .emission "[OII]3726" "[OII]3729" (25 / 10)⟩,
   ⟨true, .strongWeak .emission⟩,
   ⟨true, .strongWeak .absorption⟩,
   ⟨true, .ratio .emission "[CIII]1907" "[CIII]1909" 2⟩]

/-- `EnableRulesAccordingToParameters` (regulament.cpp:175-189). -/
def enable (param : String) (rs : List (Rule K)) : List (Rule K) :=
  if param = "no" then rs
  else rs.map fun r => { r with enabled := decide (param = "all") || hasSub r.kind.name param }

/-- `CRulesManager::setRulesOption` (rulesmanager.cpp:85-96) on the rules already in the regulament (none at
construction). -/
def setRulesOption (param : String) (rs : List (Rule K)) : List (Rule K) := enable param (rs ++ table)

/-- `CRulesManager::applyRules` (rulesmanager.cpp:71-79). -/
def applyRules (param : String) (rs : List (Rule K)) (es : List (Elt K)) : Res (List (Elt K) × List String) :=
  if param = "no" then .ok (es, []) else applyAll rs es

end Rules
end Amazed
