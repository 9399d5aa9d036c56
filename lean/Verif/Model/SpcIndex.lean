import Verif.Basic
import Verif.Model.Loop
import Verif.Model.EltSupport

set_option linter.unusedVariables false

/-! # The shared index of the spectra and the flags over all the spectra

`RedshiftLibrary/linemodel/obsiterator.h`, and in `src/lib/linemodel/lmeltlistvector.cpp` the functions computeOutsideLambdaRange,
computeOutsideLambdaRangeLine, setGlobalOutsideLambdaRangeFromSpectra and GetModelNonZeroElementsNDdl.

`CSpectraGlobalIndex` holds pointers to the current index and to the number of spectra; its copies in the line model classes share them, and the
iterators of a `for` loop are that same pointer. The index is therefore a variable read and written by all of them. -/

namespace Amazed
namespace SpcIndex

/-- What the body of a loop does: the new state, the index it leaves (a nested loop changes it) and whether it ends the loop (`break` or
`return`). -/
structure Step (σ : Type) where
  st : σ
  cur : Nat
  stop : Bool

/-- `for (auto &spcIndex : m_spectraIndex)` (obsiterator.h:52-89) from the current value of the index: the end is found by comparing the shared
index with the number of spectra. `none`: not ended after `fuel` tests. -/
def run {σ : Type} (n : Nat) (body : Nat → σ → Res (Step σ)) : Nat → Nat → σ → Option (Res (σ × Nat))
  | 0, _, _ => none
  | fuel + 1, cur, st =>
    if cur = n then some (.ok (st, cur))
    else match body cur st with
      | .ok s => if s.stop then some (.ok (s.st, s.cur)) else run n body fuel (s.cur + 1) s.st
      | .throw e => some (.throw e)
      | .ub => some .ub

/-- The loop: `begin()` sets the shared index to 0 (obsiterator.h:74-77). -/
def forEach {σ : Type} (n : Nat) (body : Nat → σ → Res (Step σ)) (fuel : Nat) (st : σ) : Option (Res (σ × Nat)) := run n body fuel 0 st

/-- `AssertIsValid` (obsiterator.h:85-89) followed by `m_models.at` (spectrummodel.h:121-129). -/
def current {α : Type} (n cur : Nat) (v : List α) : Res α :=
  if cur < n then (match v[cur]? with
    | some a => .ok a
    | none => .throw .STD_OUT_OF_RANGE)
  else .throw .INVALID_SPECTRUM_INDEX

/-- `getElementList()` (elementlist.h:160-165): `at` without the validity test. -/
def elementList {α : Type} (cur : Nat) (v : List α) : Res α := match v[cur]? with
  | some a => .ok a
  | none => .throw .STD_OUT_OF_RANGE

/-- The body of `computeOutsideLambdaRange` and `computeOutsideLambdaRangeLine` (lmeltlistvector.cpp:98-113): `out` is the flag of the
element of a spectrum; the state is the value returned. -/
def outBody (es : List (List EltSup.Elt)) (elt : Nat) (out : EltSup.Elt → Bool) (cur : Nat) (r : Bool) : Res (Step Bool) :=
  elementList cur es >>= fun l => Res.at_ l elt >>= fun e => .ok (if out e then ⟨r, cur, false⟩ else ⟨false, cur, true⟩)

/-- These functions: value and index left. -/
def computeOut (es : List (List EltSup.Elt)) (elt : Nat) (out : EltSup.Elt → Bool) (fuel : Nat) : Option (Res (Bool × Nat)) :=
  forEach es.length (outBody es elt out) fuel true

/-- The same with enough fuel for the number of spectra (proved sufficient). -/
def computeOut! (es : List (List EltSup.Elt)) (elt : Nat) (out : EltSup.Elt → Bool) : Res (Bool × Nat) :=
  match computeOut es elt out (es.length + 1) with
  | some r => r
  | none => .ub

/-- `setGlobalOutsideLambdaRangeFromSpectra` (lmeltlistvector.cpp:286-294): `sizes` are the numbers of lines of the elements; gives for each
element its flag and those of its lines, and the index left. -/
def setGlobal (es : List (List EltSup.Elt)) : List Nat → Nat → Nat → Res (List (Bool × List Bool) × Nat)
  | [], _, cur => .ok ([], cur)
  | n :: sizes, elt, cur =>
    computeOut! es elt (fun e => e.outside) >>= fun o =>
    Res.foldN (fun line s => computeOut! es elt (fun e => (e.theo line).out) >>= fun ol => .ok (s.1 ++ [ol.1], ol.2)) 0 n ([], o.2) >>= fun ls =>
    setGlobal es sizes (elt + 1) ls.2 >>= fun r => .ok ((o.1, ls.1) :: r.1, r.2)

/-- `isAllAmplitudesNull` (elementparam.cpp:123-127); `none`: NaN. -/
def allNull {K : Type} [Zero K] [LT K] [DecidableLT K] (fa : List (Option K)) : Bool := !(fa.any fun a => match a with
  | some x => decide (0 < x)
  | none => false)

/-- `GetModelNonZeroElementsNDdl` (lmeltlistvector.cpp:87-96): `outs` are the flags over all spectra, `fas` the fitted amplitudes. -/
def nonZeroNDdl {K : Type} [Zero K] [LT K] [DecidableLT K] (outs : List Bool) (fas : List (List (Option K))) : Res Nat :=
  Res.foldN (fun i n => Res.at_ outs i >>= fun o => if o then .ok n else Res.at_ fas i >>= fun fa => .ok (if allNull fa then n else n + 1))
    0 fas.length 0

end SpcIndex
end Amazed
