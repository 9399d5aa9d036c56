import Verif.Model.ResultStore
import Verif.Model.Flag

/-! # Running a solver (`src/lib/method/solve.cpp`, `Compute`; `RedshiftLibrary/method/solve.h`, the guard that saves the
warnings; `pylibamazed/python/pylibamazed/ProcessFlow.py`, the sequence of the stages)

The solver itself is a parameter: what its `InitRanges` and its `compute` do to the scope, to the results and to the warnings,
and how they end. -/

namespace Amazed
namespace SolveRun

/-- What a solver acts on: the scope stack and the result store of the context, and the warnings. -/
structure World (R : Type) where
  scope : ScopeStack
  store : ResultStore R
  flag : FlagState

/-- The end of a run: it returns, it throws, the program is ended by `std::terminate`, or its behaviour is undefined. -/
inductive End where
  | returns
  | throws (e : Err)
  | terminates
  | undefined
deriving DecidableEq

/-- The end of something that cannot end the program. -/
def End.ofRes : Res Unit → End
  | .ok () => .returns
  | .throw e => .throws e
  | .ub => .undefined

/-- A solver: its name (`m_name`), `InitRanges` and `compute`. -/
structure Solver (R : Type) where
  name : String
  init : World R → World R × Res Unit
  compute : World R → World R × Res R

section
variable {R : Type}

/-- `StoreScopedFlagResult(name)` (resultstore.cpp:435-438); `fr` makes the result of the mask and of the messages. -/
def storeFlag (fr : FlagState → R) (w : World R) (name : String) : World R × Res Unit :=
  ({ w with store := (w.store.storeScopedGlobal w.scope name (fr w.flag)).1 },
    (w.store.storeScopedGlobal w.scope name (fr w.flag)).2)

/-- The destructor of `CAutoSaveFlagToResultStore` (solve.h:85-88). -/
def autoSave (fr : FlagState → R) (w : World R) : World R × Res Unit :=
  match storeFlag fr w "warningFlag" with
  | (w1, .ok ()) => ({ w1 with flag := w1.flag.step .reset }, .ok ())
  | r => r

/-- `compute` and `saveToResultStore` (solve.cpp:59-60, 64-68). -/
def body (s : Solver R) (w : World R) : World R × Res Unit :=
  match s.compute w with
  | (w1, .ok r) =>
    ({ w1 with store := (w1.store.storeScopedGlobal w1.scope "solveResult" r).1 },
      (w1.store.storeScopedGlobal w1.scope "solveResult" r).2)
  | (w1, .throw e) => (w1, .throw e)
  | (w1, .ub) => (w1, .ub)

/-- The destructors at the end of the block of `Compute` (solve.cpp:56-61), in the reverse order of the declarations, the
body having ended with `r`. A destructor is `noexcept`: an exception that leaves it ends the program. -/
def leave (fr : FlagState → R) (w : World R) (r : Res Unit) : World R × End :=
  match autoSave fr w with
  | (w1, .throw _) => (w1, .terminates)
  | (w1, .ub) => (w1, .undefined)
  | (w1, .ok ()) =>
    match w1.scope.pop with
    | (sc, .ok ()) => ({ w1 with scope := sc }, End.ofRes r)
    | (sc, .throw _) => ({ w1 with scope := sc }, .terminates)
    | (sc, .ub) => ({ w1 with scope := sc }, .undefined)

/-- The block of `Compute` (solve.cpp:56-61): a guard whose constructor throws has no destructor run. -/
def block (fr : FlagState → R) (s : Solver R) (w : World R) : World R × End :=
  match w.scope.push s.name .METHOD with
  | (_, .throw e) => (w, .throws e)
  | (_, .ub) => (w, .undefined)
  | (sc, .ok ()) =>
    match body s { w with scope := sc } with
    | (w1, .ub) => (w1, .undefined)
    | (w1, r) => leave fr w1 r

/-- `CSolve::Compute` (solve.cpp:52-62). -/
def run (fr : FlagState → R) (s : Solver R) (w : World R) : World R × End :=
  match s.init w with
  | (w1, .throw e) => (w1, .throws e)
  | (w1, .ub) => (w1, .undefined)
  | (w1, .ok ()) => block fr s w1

/-- What is under a Python scope (ScopeManager.py:99-110): the scope is pushed, and popped in a `finally`. -/
def withScope (name : String) (t : ScopeType) (f : World R → World R × End) (w : World R) : World R × End :=
  match w.scope.push name t with
  | (_, .throw e) => (w, .throws e)
  | (_, .ub) => (w, .undefined)
  | (sc, .ok ()) =>
    match f { w with scope := sc } with
    | (w1, .terminates) => (w1, .terminates)
    | (w1, .undefined) => (w1, .undefined)
    | (w1, r) =>
      match w1.scope.pop with
      | (sc', .ok ()) => ({ w1 with scope := sc' }, r)
      | (sc', .throw e) => ({ w1 with scope := sc' }, .throws e)
      | (sc', .ub) => ({ w1 with scope := sc' }, .undefined)

/-- A stage of a spectrum model: `process_spectrum_model` under its scope and `run_method` under the scope of its stage
(ProcessFlow.py:141-146, 230-238, 280-284, 292-305). -/
structure Job (R : Type) where
  model : String
  stage : String
  solver : Solver R

/-- One stage. -/
def stageRun (fr : FlagState → R) (j : Job R) (w : World R) : World R × End :=
  withScope j.model .SPECTRUMMODEL (withScope j.stage .STAGE (run fr j.solver)) w

/-- The stages, one after the other: exceptions are caught and recorded by the handlers of the stages
(ProcessFlow.py:70-92). (An exception of the redshift stage also skips the other stages of its model: such a sequence of stages
is another list.) Nothing follows an ended program. -/
def session (fr : FlagState → R) : List (Job R) → World R → World R × List End
  | [], w => (w, [])
  | j :: js, w =>
    match stageRun fr j w with
    | (w1, .terminates) => (w1, [.terminates])
    | (w1, .undefined) => (w1, [.undefined])
    | (w1, r) => ((session fr js w1).1, r :: (session fr js w1).2)

end
end SolveRun
end Amazed
