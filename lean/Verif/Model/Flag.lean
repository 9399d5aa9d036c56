import Verif.Basic

/-! # `CFlagWarning` (`src/lib/common/flag.cpp`) -/

namespace Amazed

/-- `WarningCode` (`RedshiftLibrary/common/warningcodes.i`:1-21). -/
inductive WarningCode where
  | AIR_VACUUM_CONVERSION_IGNORED
  | PDF_PEAK_NOT_FOUND
  | ESTIMATED_STD_FAR_FROM_INPUT
  | LINEMATCHING_REACHED_ENDLOOP
  | FORCED_IGNORELINESUPPORT_TO_FALSE
  | FORCED_CONTINUUM_COMPONENT_TO_FROMSPECTRUM
  | AIR_VACUUM_REACHED_MAX_ITERATIONS
  | ASYMFIT_NAN_PARAMS
  | DELTAZ_COMPUTATION_FAILED
  | INVALID_FOLDER_PATH
  | FORCED_CONTINUUM_TO_NOCONTINUUM
  | FORCED_CONTINUUM_REESTIMATION_TO_NO
  | LESS_OBSERVED_SAMPLES_THAN_AMPLITUDES_TO_FIT
  | LBFGSPP_ERROR
  | PDF_INTEGRATION_WINDOW_TOO_SMALL
  | UNUSED_PARAMETER
  | SPECTRUM_WAVELENGTH_TIGHTER_THAN_PARAM
  | MULTI_OBS_ARBITRARY_LSF
deriving DecidableEq, Repr

/-- `(int)c` for the enumerators, numbered from 0 (`warningcodes.i`:1-21). -/
def WarningCode.toNat : WarningCode → Nat := WarningCode.ctorIdx

/-- State of the `CFlagWarning` singleton (`RedshiftLibrary/common/flag.h`): `m_flags` and
`m_messageList`. The singleton has static storage, so `m_flags` starts at 0. -/
structure FlagState where
  flags : BitVec 32 := 0
  messages : List (WarningCode × String) := []

/-- Calls that change the state. -/
inductive FlagOp where
  | warning (c : WarningCode) (msg : String)
  | reset

/-- `CFlagWarning::warning` (flag.cpp:52-56) and `resetFlag` (flag.cpp:71-74). The log line written by
`warning` is not modelled. -/
def FlagState.step (s : FlagState) : FlagOp → FlagState
  | .warning c msg => { flags := s.flags ||| (1#32 <<< c.toNat), messages := s.messages ++ [(c, msg)] }
  | .reset => { flags := 0, messages := [] }

/-- `CFlagWarning::getBitMask` (flag.cpp:69). -/
def FlagState.getBitMask (s : FlagState) : BitVec 32 := s.flags

/-- `CFlagWarning::getListMessages` (flag.cpp:76). -/
def FlagState.getListMessages (s : FlagState) : List (WarningCode × String) := s.messages

/-- State after a history of calls. -/
def FlagState.run (ops : List FlagOp) : FlagState := ops.foldl FlagState.step {}

end Amazed
