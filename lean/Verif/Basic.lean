/-!
# Outcomes of C++ calls

`Res α` is what a call of the library can do: return a value, throw a library
exception, or run into undefined behaviour.
-/

namespace Amazed

/-- Library error codes used by the modelled code
(`RedshiftLibrary/RedshiftLibrary/common/errorcodes.i`), and the two standard library
exceptions (`std::out_of_range`, `std::length_error`) that the code lets through. -/
inductive Err where
  | INTERNAL_ERROR
  | EXTERNAL_LIB_ERROR
  | INVALID_SPECTRUM_WAVELENGTH
  | INVALID_SPECTRUM_FLUX
  | INVALID_NOISE
  | INVALID_WAVELENGTH_RANGE
  | NEGATIVE_CONTINUUMFIT
  | BAD_CONTINUUMFIT
  | NULL_AMPLITUDES
  | PDF_PEAK_NOT_FOUND
  | STDESTIMATION_FAILED
  | MAX_AT_BORDER_PDF
  | MISSING_PARAMETER
  | BAD_PARAMETER_VALUE
  | UNKNOWN_ATTRIBUTE
  | BAD_LINECATALOG
  | BAD_LOGSAMPLEDSPECTRUM
  | BAD_COUNTMATCH
  | BAD_TEMPLATECATALOG
  | INVALID_SPECTRUM
  | OVERLAPFRACTION_NOTACCEPTABLE
  | DZ_NOT_COMPUTABLE
  | INCOHERENT_INPUTPARAMETERS
  | BAD_CALZETTICORR
  | CRANGE_VALUE_OUTSIDERANGE
  | CRANGE_VECTBORDERS_OUTSIDERANGE
  | CRANGE_NO_INTERSECTION
  | INVALID_MERIT_VALUES
  | TPL_NAME_EMPTY
  | EMPTY_LIST
  | LESS_OBSERVED_SAMPLES_THAN_AMPLITUDES_TO_FIT
  | SPECTRUM_CORRECTION_ERROR
  | SCOPESTACK_ERROR
  | FLAT_ZPDF
  | NEGATIVE_CONTINUUM
  | NULL_MODEL
  | INVALID_SPECTRUM_INDEX
  | UNKNOWN_AIR_VACUUM_CONVERSION
  | BAD_LINE_TYPE
  | BAD_LINE_FORCE
  | FFT_WITH_PHOTOMETRY_NOTIMPLEMENTED
  | MULTIOBS_WITH_PHOTOMETRY_NOTIMPLEMENTED
  | MISSING_PHOTOMETRIC_DATA
  | MISSING_PHOTOMETRIC_TRANSMISSION
  | PDF_NORMALIZATION_FAILED
  | INSUFFICIENT_TEMPLATE_COVERAGE
  | INSUFFICIENT_LSF_COVERAGE
  | INVALID_LSF
  | LSF_NOT_LOADED
  | UNALLOWED_DUPLICATES
  | UNSORTED_ARRAY
  | INVALID_DIRECTORY
  | INVALID_FILEPATH
  | INVALID_PARAMETER
  | MISSING_CONFIG_OPTION
  | BAD_FILEFORMAT
  | INCOHERENT_CONFIG_OPTIONS
  | ATTRIBUTE_NOT_SUPPORTED
  | INCOMPATIBLE_PDF_MODELSHAPES
  | UNKNOWN_RESULT_TYPE
  | RELIABILITY_NEEDS_TENSORFLOW
  | OUTPUT_READER_ERROR
  | PYTHON_API_ERROR
  | INVALID_NAME
  | INVALID_FILTER_INSTRUCTION
  | INVALID_FILTER_KEY
  | NO_CLASSIFICATION
  | INVALID_PARAMETER_FILE
  | DUPLICATED_LINES
  | STAGE_NOT_RUN_BECAUSE_OF_PREVIOUS_FAILURE
  | LINE_RATIO_UNKNOWN_LINE
  | STD_OUT_OF_RANGE
  | STD_LENGTH_ERROR
deriving DecidableEq, Repr

/-- Outcome of a call. `ub` is undefined behaviour of C++. -/
inductive Res (α : Type _) where
  | ok (a : α)
  | throw (e : Err)
  | ub
deriving DecidableEq, Repr

namespace Res

/-- Sequencing: an exception or undefined behaviour ends the computation. -/
def bind {α β} (x : Res α) (f : α → Res β) : Res β :=
  match x with
  | ok a => f a
  | throw e => throw e
  | ub => ub

instance : Monad Res where
  pure := ok
  bind := bind

@[simp] theorem pure_eq {α} (a : α) : (pure a : Res α) = ok a := rfl
@[simp] theorem bind_ok {α β} (a : α) (f : α → Res β) : (ok a >>= f) = f a := rfl
@[simp] theorem bind_throw {α β} (e : Err) (f : α → Res β) : (throw e >>= f) = throw e := rfl
@[simp] theorem bind_ub {α β} (f : α → Res β) : (ub >>= f) = ub := rfl

theorem bind_eq_ok {α β} {x : Res α} {f : α → Res β} {b : β} :
    (x >>= f) = ok b ↔ ∃ a, x = ok a ∧ f a = ok b := by
  cases x <;> simp

theorem bind_eq_ub {α β} {x : Res α} {f : α → Res β} :
    (x >>= f) = ub ↔ x = ub ∨ ∃ a, x = ok a ∧ f a = ub := by
  cases x <;> simp

/-- Unchecked `v[i]` on a `std::vector`: undefined when `i` is out of range. -/
def at_ {α} (l : List α) (i : Nat) : Res α :=
  match l[i]? with
  | some a => ok a
  | none => ub

/-- Unchecked `v[i]` with a signed index. -/
def atZ {α} (l : List α) (i : Int) : Res α :=
  if i < 0 then ub else at_ l i.toNat

theorem at_eq_ok {α} {l : List α} {i : Nat} {a : α} : at_ l i = ok a ↔ l[i]? = some a := by
  unfold at_; split <;> simp_all

theorem at_of_lt {α} {l : List α} {i : Nat} (h : i < l.length) : at_ l i = ok l[i] := by
  simp [at_, h]

theorem at_eq_ub {α} {l : List α} {i : Nat} : at_ l i = ub ↔ l.length ≤ i := by
  unfold at_
  cases h : l[i]? with
  | none => simpa using h
  | some a =>
    have := (List.getElem?_eq_some_iff.1 h).1
    simp; omega

end Res

end Amazed
