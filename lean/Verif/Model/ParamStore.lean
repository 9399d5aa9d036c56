import Verif.Model.Scope

/-! # `CParameterStore` (`src/lib/processflow/parameterstore.cpp`) on a boost property tree -/

namespace Amazed

/-- A `boost::property_tree::ptree`: a string and an ordered list of named children. -/
inductive PTree where
  | node (data : String) (children : List (String × PTree))

namespace PTree

/-- The data of a node. -/
def data : PTree → String
  | .node d _ => d

/-- The children of a node. -/
def children : PTree → List (String × PTree)
  | .node _ cs => cs

/-- Keys of a dotted path (`boost::property_tree::string_path`, used by every access of parameterstore.cpp
and parameterstore.h): the parts between dots; a last empty part is not a key. -/
def keys (path : String) : List String :=
  let parts := (path.toList.splitOn '.').map String.ofList
  if parts.getLast? = some "" then parts.dropLast else parts

/-- First child with a key (`ptree::find`). -/
def findChild (k : String) : List (String × PTree) → Option PTree
  | [] => none
  | (k', t) :: cs => if k' = k then some t else findChild k cs

/-- `get_child_optional` (used at parameterstore.h:66-67, 127-128). -/
def child? : List String → PTree → Option PTree
  | [], t => some t
  | k :: ks, .node _ cs =>
    match findChild k cs with
    | some t => child? ks t
    | none => none

/-- Replace the first child with key `k`, or append one. -/
def setChild (k : String) (t : PTree) : List (String × PTree) → List (String × PTree)
  | [] => [(k, t)]
  | (k', t') :: cs => if k' = k then (k, t) :: cs else (k', t') :: setChild k t cs

/-- `ptree::put(path, value)` (used at parameterstore.cpp:123-147): the node is created if missing, with the
nodes on the path; only the data of the addressed node changes. -/
def put : List String → String → PTree → PTree
  | [], v, .node _ cs => .node v cs
  | k :: ks, v, .node d cs =>
    .node d (setChild k (put ks v (match findChild k cs with | some t => t | none => .node "" [])) cs)

/-- `ptree::put_child(path, tree)` (used at parameterstore.cpp:63, 79, 104, 120). -/
def putChild : List String → PTree → PTree → PTree
  | [], c, _ => c
  | k :: ks, c, .node d cs =>
    .node d (setChild k (putChild ks c (match findChild k cs with | some t => t | none => .node "" [])) cs)

end PTree

/-- Reading a `bool` from the data (boost's stream translator): numbers 0 and 1, then the words. -/
def readBool (s : String) : Option Bool :=
  if s = "1" ∨ s = "true" then some true
  else if s = "0" ∨ s = "false" then some false
  else none

/-- Reading a string: always succeeds. -/
def readString (s : String) : Option String := some s

/-- The store: its property tree and the translator for numbers, which is kept abstract. -/
structure ParamStore (α : Type) where
  tree : PTree
  readNum : String → Option α

namespace ParamStore
variable {α : Type}

/-- Data at a path. -/
def data? (s : ParamStore α) (name : String) : Option String :=
  (PTree.child? (PTree.keys name) s.tree).map PTree.data

/-- `get_optional<T>(name)` for a translator. -/
def getOptional {T : Type} (s : ParamStore α) (rd : String → Option T) (name : String) : Option T :=
  match s.data? name with
  | some d => rd d
  | none => none

/-- `Has<T>` (parameterstore.h:63-72). -/
def has {T : Type} (s : ParamStore α) (rd : String → Option T) (name : String) : Bool :=
  if (s.getOptional rd name).isNone then
    (PTree.child? (PTree.keys name) s.tree).isSome
  else true

/-- `Get<T>` (parameterstore.h:93-99). -/
def get {T : Type} (s : ParamStore α) (rd : String → Option T) (name : String) : Res T :=
  match s.getOptional rd name with
  | some v => .ok v
  | none => .throw .MISSING_PARAMETER

/-- `GetScoped<T>` (parameterstore.h:101-108). -/
def getScoped {T : Type} (s : ParamStore α) (sc : ScopeStack) (rd : String → Option T) (name : String) : Res T :=
  if s.has rd (scopedName sc name) then s.get rd (scopedName sc name) else .throw .MISSING_PARAMETER

/-- `GetScopedAt<T>(name, depth)` (parameterstore.h:116-124). -/
def getScopedAt {T : Type} (s : ParamStore α) (sc : ScopeStack) (rd : String → Option T) (name : String)
    (depth : Int) : Res T := do
  let n ← scopedNameAt sc name depth
  if s.has rd n then s.get rd n else .throw .MISSING_PARAMETER

/-- `GetList<T>` (parameterstore.h:126-140): the values of the children in order; a value that cannot be read
makes boost throw (`ptree_bad_data`, not a library error; here EXTERNAL_LIB_ERROR). -/
def getList {T : Type} (s : ParamStore α) (rd : String → Option T) (name : String) : Res (List T) :=
  match PTree.child? (PTree.keys name) s.tree with
  | none => .throw .MISSING_PARAMETER
  | some t =>
    match t.children.mapM (fun c => rd c.2.data) with
    | some l => .ok l
    | none => .throw .EXTERNAL_LIB_ERROR

/-- `GetListScoped<T>` (parameterstore.h:142-148). -/
def getListScoped {T : Type} (s : ParamStore α) (sc : ScopeStack) (rd : String → Option T) (name : String) :
    Res (List T) :=
  if s.has rd (scopedName sc name) then s.getList rd (scopedName sc name) else s.getList rd name

/-- `Get<TFloat64Range>` (parameterstore.h:167-172): `fl[0]`, `fl[1]` without a check. -/
def getRange (s : ParamStore α) (name : String) : Res (α × α) := do
  let fl ← s.getList s.readNum name
  let a ← Res.at_ fl 0
  let b ← Res.at_ fl 1
  pure (a, b)

/-- `Set(name, string)` (parameterstore.cpp:142-147). -/
def setString (s : ParamStore α) (name v : String) : ParamStore α :=
  { s with tree := PTree.put (PTree.keys name) v s.tree }

/-- `Set(name, bool)` (parameterstore.cpp:136-140). The stream translator writes a `bool` as a word. -/
def setBool (s : ParamStore α) (name : String) (v : Bool) : ParamStore α :=
  s.setString name (if v then "true" else "false")

/-- `Set(name, list of strings)` (parameterstore.cpp:66-80). -/
def setStringList (s : ParamStore α) (name : String) (v : List String) : ParamStore α :=
  { s with tree := PTree.putChild (PTree.keys name) (.node "" (v.map (fun x => ("", .node x [])))) s.tree }

/-- `if (Has<bool>(n)) x = Get<bool>(n)` with `x` initially false. -/
def boolOrFalse (s : ParamStore α) (n : String) : Res Bool :=
  if s.has readBool n then s.get readBool n else .ok false

/-- `HasTplIsmExtinction` (parameterstore.cpp:158-184). -/
def hasTplIsmExtinction (s : ParamStore α) (m : String) : Res Bool :=
  if !s.has readString (m ++ ".redshiftSolver.method") then .ok false
  else do
    let method ← s.get readString (m ++ ".redshiftSolver.method")
    if method = "templateFittingSolve" ∨ method = "tplCombinationSolve" then
      s.boolOrFalse (m ++ ".redshiftSolver." ++ method ++ ".ismFit")
    else if method = "lineModelSolve" then do
      let a ← s.boolOrFalse (m ++ ".redshiftSolver." ++ method ++ ".lineModel.continuumFit.ismFit")
      let b ← s.boolOrFalse (m ++ ".redshiftSolver." ++ method ++ ".lineModel.tplRatioIsmFit")
      pure (a || b)
    else pure false

/-- `HasTplIgmExtinction` (parameterstore.cpp:186-204). For an unknown method the name read is the method's
own scope. -/
def hasTplIgmExtinction (s : ParamStore α) (m : String) : Res Bool :=
  if !s.has readString (m ++ ".redshiftSolver.method") then .ok false
  else do
    let method ← s.get readString (m ++ ".redshiftSolver.method")
    let base := m ++ ".redshiftSolver." ++ method
    let n := if method = "templateFittingSolve" ∨ method = "tplCombinationSolve" then base ++ ".igmFit"
      else if method = "lineModelSolve" then base ++ ".lineModel.continuumFit.igmFit"
      else base
    s.boolOrFalse n

/-- `HasFFTProcessing` (parameterstore.cpp:206-227). -/
def hasFFTProcessing (s : ParamStore α) (m : String) : Res Bool :=
  if !s.has readString (m ++ ".redshiftSolver.method") then .ok false
  else do
    let method ← s.get readString (m ++ ".redshiftSolver.method")
    if method = "templateFittingSolve" then
      s.boolOrFalse (m ++ ".redshiftSolver.templateFittingSolve.fftProcessing")
    else if method = "lineModelSolve" then
      s.boolOrFalse (m ++ ".redshiftSolver.lineModelSolve.lineModel.continuumFit.fftProcessing")
    else pure false

/-- `HasToOrthogonalizeTemplates` (parameterstore.cpp:229-247). -/
def hasToOrthogonalize (s : ParamStore α) (m : String) : Res Bool := do
  let isLM ← if s.has readString (m ++ ".redshiftSolver.method") then do
      let method ← s.get readString (m ++ ".redshiftSolver.method")
      pure (decide (method = "lineModelSolve"))
    else pure false
  if isLM then do
    let _ ← s.get readString (m ++ ".redshiftSolver.lineModelSolve")
    let cc ← s.get readString (m ++ ".redshiftSolver.lineModelSolve.lineModel.continuumComponent")
    pure (decide (cc = "tplFit" ∨ cc = "tplFitAuto"))
  else pure false

/-- `EnableTemplateOrthogonalization` (parameterstore.cpp:249-258). -/
def enableOrtho (s : ParamStore α) (m : String) : Res Bool := do
  let e ← s.hasToOrthogonalize m
  if e then do
    let i ← s.get readBool (m ++ ".redshiftSolver.lineModelSolve.lineModel.continuumFit.ignoreLineSupport")
    pure (!i)
  else pure false

/-- `hasToLogRebin` (parameterstore.cpp:260-270): the returned flag and the map filled (category, flag), in
the order of the categories; the map starts as given by the caller, here empty. -/
def hasToLogRebin (s : ParamStore α) : List String → Res (Bool × List (String × Bool))
  | [] => .ok (false, [])
  | c :: cs => do
    let f ← s.hasFFTProcessing c
    let (u, l) ← s.hasToLogRebin cs
    pure (f || u, (c, f) :: l)

/-- The loop of `getMinZStepForFFTProcessing` (parameterstore.cpp:275-280). -/
def minZStepLoop [LT α] [DecidableLT α] (s : ParamStore α) : List (String × Bool) → α → Res α
  | [], acc => .ok acc
  | (_, false) :: l, acc => minZStepLoop s l acc
  | (c, true) :: l, acc => do
    let st ← s.get s.readNum (c ++ ".redshiftStep")
    minZStepLoop s l (if acc < st then acc else st)

/-- `getMinZStepForFFTProcessing` (parameterstore.cpp:272-282); `big` stands for `DBL_MAX`. -/
def minZStep [LT α] [DecidableLT α] (s : ParamStore α) (big : α) (fft : List (String × Bool)) : Res α :=
  s.minZStepLoop fft big

end ParamStore
end Amazed
