import Verif.Basic
import Verif.Model.Loop
import Verif.Model.Pdfz
import Mathlib.Analysis.SpecialFunctions.Exp

set_option linter.unusedVariables false

/-! # Classification of the object type

`RedshiftLibrary/src/lib/method/classificationsolve.cpp` and `classificationresult.cpp`.

Simplifications: evidences are real numbers, minus infinity or NaN (plus infinity is left out);
rounding, overflow and underflow of `exp` are not modelled. The parameter store is the function
`method` (the value of `<category>.redshiftSolver.method`, or the exception of the look-up); the result
store is the function `solve`. -/

namespace Amazed
namespace Classify

/-- A log evidence (`Float64`): a real number, `-INFINITY` or a NaN. -/
inductive Ev where
  | fin (x : ℝ)
  | ninf
  | nan

/-- What the result store holds for a category, stage `redshiftSolver` and method: nothing, a result which is
not a `CPdfSolveResult` (`dynamic_pointer_cast` gives a null pointer), or a `CPdfSolveResult` of a given evidence. -/
inductive Stored where
  | absent
  | notPdf
  | pdf (e : Ev)

/-- `CClassificationResult` (classificationresult.i, classificationresult.cpp:47-59): maps are functions to
`Option`; a probability `none` is a NaN. -/
structure Result where
  label : String
  proba : String → Option (Option ℝ)
  evidence : String → Option Ev

/-- Loop one (classificationsolve.cpp:57-70): the stored result of each category, in order. The maps of the
loop are keyed by the category; categories occurring twice get the same value both times. -/
def lookups (method : String → Res String) (solve : String → String → Stored) : List String → Res (List (String × Stored))
  | [] => .ok []
  | c :: cs => method c >>= fun m => lookups method solve cs >>= fun l => .ok ((c, solve c m) :: l)

/-- `logEvidence > MaxLogEvidence` (classificationsolve.cpp:78). -/
noncomputable def evGt (e : Ev) (m : ℝ) : Bool := open Classical in
  match e with
  | .fin x => decide (x > m)
  | _ => false

/-- Loop two (classificationsolve.cpp:72-83): the largest evidence and its label, from the current ones. -/
noncomputable def maxLoop : List (String × Stored) → ℝ × String → Res (ℝ × String)
  | [], s => .ok s
  | (_, .absent) :: l, s => maxLoop l s
  | (_, .notPdf) :: _, _ => .ub
  | (c, .pdf e) :: l, s => maxLoop l (match e with
      | .fin x => if evGt e s.1 then (x, c) else s
      | _ => s)

/-- `exp(logEvidence - MaxLogEvidence)` (classificationsolve.cpp:89, 99). -/
noncomputable def expEv (e : Ev) (m : ℝ) : Option ℝ :=
  match e with
  | .fin x => some (Real.exp (x - m))
  | .ninf => some 0
  | .nan => none

/-- Sum of two `Float64`, `none` being a NaN. -/
noncomputable def addNan (a b : Option ℝ) : Option ℝ := match a, b with
  | some x, some y => some (x + y)
  | _, _ => none

/-- Loop three (classificationsolve.cpp:85-92). -/
noncomputable def sumLoop (m : ℝ) : List (String × Stored) → Option ℝ → Option ℝ
  | [], s => s
  | (_, .pdf e) :: l, s => sumLoop m l (addNan s (expEv e m))
  | _ :: l, s => sumLoop m l s

/-- Division of two `Float64`, `none` being a NaN; the divisor is not zero here. -/
noncomputable def divNan (a b : Option ℝ) : Option ℝ := match a, b with
  | some x, some y => some (x / y)
  | _, _ => none

/-- Loop four (classificationsolve.cpp:97-107): fill the result. -/
noncomputable def fill (m : ℝ) (sum : Option ℝ) : List (String × Stored) → Result → Result
  | [], r => r
  | (c, .pdf e) :: l, r => fill m sum l
      { r with proba := Function.update r.proba c (some (divNan (expEv e m) sum)),
               evidence := Function.update r.evidence c (some e) }
  | (c, _) :: l, r => fill m sum l
      { r with proba := Function.update r.proba c (some (some 0)),
               evidence := Function.update r.evidence c (some .ninf) }

/-- `CClassificationSolve::compute` (classificationsolve.cpp:49-111). `label` is the member `typeLabel`, kept from
a previous call (`"U"` at construction, classificationsolve.h:62). -/
noncomputable def compute (label : String) (cats : List String) (method : String → Res String)
    (solve : String → String → Stored) : Res Result :=
  open Classical in
  lookups method solve cats >>= fun l =>
  maxLoop l (-Pdfz.dblMax, label) >>= fun s =>
  match sumLoop s.1 l (some 0) with
  | some t => if t ≤ 0 then .throw .NO_CLASSIFICATION
              else .ok { fill s.1 (some t) l ⟨"", fun _ => none, fun _ => none⟩ with label := s.2 }
  | none => .ok { fill s.1 none l ⟨"", fun _ => none, fun _ => none⟩ with label := s.2 }

end Classify
end Amazed
