import Verif.Basic

/-! # Logarithmic resampling of the inputs (`src/lib/processflow/inputcontext.cpp`, `CInputContext::RebinInputs`;
`src/lib/method/objectSolve.cpp`, `GetRedshiftSampling`)

The spectra, the rebinned spectra, the ranges and the operations on them are parameters; `Verif.Model.LogRebin` is a model of
the operations. This file models which spectrum goes where. -/

set_option linter.unusedVariables false

namespace Amazed
namespace RebinInputs

/-- The operations used by `RebinInputs`. -/
structure Ops (S L R G C Z : Type) where
  /-- `GetSpectralAxis().IsLogSampled()`. -/
  isLog : S → Bool
  /-- The corrected and cut log-sampled spectrum (inputcontext.cpp:97-114). -/
  correct : S → L → Res R
  /-- `GetlogGridStep` of a rebinned spectrum (inputcontext.cpp:115-116). -/
  step : R → Res G
  /-- `getMinZStepForFFTProcessing` (inputcontext.cpp:118-119). -/
  minStep : Res G
  /-- The constructor of `CSpectrumLogRebinning` (logrebinning.cpp:47-59), given the first spectrum of the context (the first
  rebinned one if the first input is log-sampled), the first range and the step, then `loglambdaRebinSpectrum`. -/
  rebin : (S ⊕ R) → L → G → S → Res R
  /-- `logRebinTemplateCatalog` of a category (logrebinning.cpp:302-380): the new redshift range. -/
  category : String → Res Z
  /-- `ClampLambdaRange` (inputcontext.cpp:138-139). -/
  clamp : R → L → Res C

variable {S L R G C Z : Type}

/-- The first loop (inputcontext.cpp:94-121): the rebinned spectra and the step (of the last spectrum). -/
def firstLoop (o : Ops S L R G C Z) : List (S × L) → List R × Option G → Res (List R × Option G)
  | [], st => .ok st
  | (s, l) :: rest, (reb, g) =>
    if o.isLog s then
      o.correct s l >>= fun r => o.step r >>= fun g' => firstLoop o rest (reb ++ [r], some g')
    else o.minStep >>= fun g' => firstLoop o rest (reb, some g')

/-- `std::map::insert`: does not replace an existing value. -/
def insert (m : String → Option Z) (c : String) (z : Z) : String → Option Z :=
  fun c' => if c' = c then (match m c with | some v => some v | none => some z) else m c'

/-- The loop over the categories (inputcontext.cpp:130-136); `cats` are the categories with FFT processing. -/
def catLoop (o : Ops S L R G C Z) : List String → (String → Option Z) → Res (String → Option Z)
  | [], m => .ok m
  | c :: cs, m => o.category c >>= fun z => catLoop o cs (insert m c z)

/-- The second loop (inputcontext.cpp:126-141): the rebinned spectra, the clamped ranges, the redshift ranges. Reading the
last rebinned spectrum of an empty list is `ub`. -/
def secondLoop (o : Ops S L R G C Z) (first : S ⊕ R) (l0 : L) (g : G) (cats : List String) :
    List (S × L) → List R × List C × (String → Option Z) → Res (List R × List C × (String → Option Z))
  | [], st => .ok st
  | (s, l) :: rest, (reb, cl, m) =>
    (if o.isLog s then .ok reb else o.rebin first l0 g s >>= fun r => .ok (reb ++ [r])) >>= fun reb' =>
    catLoop o cats m >>= fun m' =>
    match reb'.getLast? with
    | none => .ub
    | some r => o.clamp r l >>= fun c => secondLoop o first l0 g cats rest (reb', cl ++ [c], m')

/-- `RebinInputs` (inputcontext.cpp:87-142), when some category needs FFT processing: the rebinned spectra (in the order of
`m_rebinnedSpectra`), their clamped ranges (one per input spectrum) and the redshift ranges; `m` is the content of `m_logRebin`
before the call. -/
def run (o : Ops S L R G C Z) (cats : List String) (m : String → Option Z) (spectra : List (S × L)) :
    Res (List R × List C × (String → Option Z)) :=
  firstLoop o spectra ([], none) >>= fun st =>
  match spectra, st.2 with
  | (s0, l0) :: _, some g =>
    (if o.isLog s0 then
      match st.1 with
      | r0 :: _ => .ok (Sum.inr r0)
      | [] => .ub
     else .ok (Sum.inl s0)) >>= fun first =>
    secondLoop o first l0 g cats spectra (st.1, [], m)
  | _, _ => .ub

/-- `GetRedshiftSampling` (objectSolve.cpp:72-94), the range: that of `m_logRebin` if the category is there, else the
parameter. -/
def redshiftRange (m : String → Option Z) (param : Z) (c : String) : Z :=
  match m c with
  | some z => z
  | none => param

end RebinInputs
end Amazed
