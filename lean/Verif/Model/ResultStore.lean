import Verif.Model.Scope

/-! # `COperatorResultStore` (`src/lib/processflow/resultstore.cpp`) -/

namespace Amazed

/-- A `TResultsMap` (`RedshiftLibrary/processflow/resultstore.h`:78-79): a `std::map` from names to result
objects, as a partial function. `R` stands for the shared pointers to results. -/
abbrev ResultsMap (R : Type) := String → Option R

/-- The two members of the store (resultstore.h:210-): `m_GlobalResults` and `m_PerTemplateResults`. -/
structure ResultStore (R : Type) where
  global : ResultsMap R := fun _ => none
  perTemplate : String → Option (ResultsMap R) := fun _ => none

namespace ResultStore
variable {R : Type}

/-- The key built by `StoreResult` (resultstore.cpp:65-70). -/
def storeKey (path name : String) : String :=
  (if path.isEmpty then "" else path ++ ".") ++ name

/-- `StoreResult` (resultstore.cpp:62-78): the map after the call, and how it ends. -/
def storeResult (m : ResultsMap R) (path name : String) (r : R) : ResultsMap R × Res Unit :=
  match m (storeKey path name) with
  | some _ => (m, .throw .INTERNAL_ERROR)
  | none => (fun k => if k = storeKey path name then some r else m k, .ok ())

/-- `StoreGlobalResult(path, name, result)` (resultstore.cpp:91-95). -/
def storeGlobal (s : ResultStore R) (path name : String) (r : R) : ResultStore R × Res Unit :=
  ({ s with global := (storeResult s.global path name r).1 }, (storeResult s.global path name r).2)

/-- `StorePerTemplateResult` (resultstore.cpp:80-89): the template gets an (empty) map first, whatever
`StoreResult` does next. A template is identified by its name. -/
def storePerTemplate (s : ResultStore R) (tpl path name : String) (r : R) : ResultStore R × Res Unit :=
  let m : ResultsMap R := match s.perTemplate tpl with | some m => m | none => fun _ => none
  let res := storeResult m path name r
  ({ s with perTemplate := fun t => if t = tpl then some res.1 else s.perTemplate t }, res.2)

/-- `reset` (resultstore.h:205-208). -/
def reset (_ : ResultStore R) : ResultStore R := {}

/-- `GetGlobalResult(name)` (resultstore.cpp:153-161). -/
def getGlobal (s : ResultStore R) (name : String) : Res R :=
  match s.global name with
  | some r => .ok r
  | none => .throw .UNKNOWN_ATTRIBUTE

/-- `GetPerTemplateResult(t, name)` (resultstore.cpp:97-112). -/
def getPerTemplate (s : ResultStore R) (tpl name : String) : Res R :=
  match s.perTemplate tpl with
  | some m => (match m name with | some r => .ok r | none => .throw .INTERNAL_ERROR)
  | none => .throw .INTERNAL_ERROR

/-- `GetPerTemplateResult(name)` (resultstore.cpp:120-136): the map from template names to results. -/
def getAllTemplates (s : ResultStore R) (name : String) : String → Option R := fun tpl =>
  match s.perTemplate tpl with
  | some m => m name
  | none => none

/-- `buildFullname` (resultstore.cpp:168-181). -/
def buildFullname (spectrumModel stage method name : String) : String :=
  (if spectrumModel.isEmpty then "" else spectrumModel ++ ".") ++
  (if stage.isEmpty then "" else stage ++ ".") ++
  (if method.isEmpty then "" else method ++ ".") ++ name

/-- `HasDataset` (resultstore.cpp:371-378). -/
def hasDataset (s : ResultStore R) (spectrumModel stage method name : String) : Bool :=
  (s.global (buildFullname spectrumModel stage method name)).isSome

/-- `GetGlobalResult(spectrumModel, stage, method, name)` (resultstore.cpp:183-187). -/
def getGlobal4 (s : ResultStore R) (spectrumModel stage method name : String) : Res R :=
  s.getGlobal (buildFullname spectrumModel stage method name)

/-- `StoreScopedGlobalResult` (resultstore.cpp:425-428). -/
def storeScopedGlobal (s : ResultStore R) (sc : ScopeStack) (name : String) (r : R) :
    ResultStore R × Res Unit := s.storeGlobal (currentScopeName sc.names) name r

/-- `GetScopedGlobalResult` (resultstore.cpp:163-166). -/
def getScopedGlobal (s : ResultStore R) (sc : ScopeStack) (name : String) : Res R :=
  s.getGlobal (scopedName sc name)

/-- `StoreScopedPerTemplateResult` (resultstore.cpp:419-423). -/
def storeScopedPerTemplate (s : ResultStore R) (sc : ScopeStack) (tpl name : String) (r : R) :
    ResultStore R × Res Unit := s.storePerTemplate tpl (currentScopeName sc.names) name r

/-- `GetScopedPerTemplateResult(t, name)` (resultstore.cpp:114-118). -/
def getScopedPerTemplate (s : ResultStore R) (sc : ScopeStack) (tpl name : String) : Res R :=
  s.getPerTemplate tpl (scopedName sc name)

/-- The calls that change the store. -/
inductive Op (R : Type) where
  | global (path name : String) (r : R)
  | perTemplate (tpl path name : String) (r : R)
  | reset

/-- One call: the store after it and how it ends. -/
def step (s : ResultStore R) : Op R → ResultStore R × Res Unit
  | .global path name r => s.storeGlobal path name r
  | .perTemplate tpl path name r => s.storePerTemplate tpl path name r
  | .reset => (s.reset, .ok ())

/-- The store after a history of calls, those that throw included. -/
def run (ops : List (Op R)) : ResultStore R := ops.foldl (fun s o => (s.step o).1) {}

end ResultStore
end Amazed
