import Verif.Basic

/-! # `CScopeStack`, `CAutoScope`, `CScopeStore` -/

namespace Amazed

/-- `ScopeType` (`RedshiftLibrary/processflow/scopestack.h`:55). -/
inductive ScopeType where
  | UNDEFINED
  | SPECTRUMMODEL
  | STAGE
  | METHOD
deriving DecidableEq, Repr

/-- `CScopeStack` (scopestack.h:67-105): `m_scopeStack` (outermost first) and `m_type_level`, a map given
as a partial function (`none`: no entry). -/
structure ScopeStack where
  names : List String
  level : ScopeType → Option Nat

namespace ScopeStack

/-- The constructors (scopestack.h:69-72): given names, no type. -/
def ofNames (names : List String) : ScopeStack := { names, level := fun _ => none }

/-- `has_type` (scopestack.h:90-92). -/
def hasType (s : ScopeStack) (t : ScopeType) : Bool := (s.level t).isSome

/-- `get_type_level` (scopestack.h:96): `std::map::at`. -/
def getTypeLevel (s : ScopeStack) (t : ScopeType) : Res Nat :=
  match s.level t with
  | some l => .ok l
  | none => .throw .STD_OUT_OF_RANGE

/-- `get_type_value` (scopestack.h:93-95): `std::map::at` then `std::vector::at`. -/
def getTypeValue (s : ScopeStack) (t : ScopeType) : Res String := do
  let l ← s.getTypeLevel t
  match s.names[l]? with
  | some v => .ok v
  | none => .throw .STD_OUT_OF_RANGE

/-- `get_current_type` (scopestack.cpp:61-70): the first type, in the order of the enumeration, whose
level plus one is the size. -/
def getCurrentType (s : ScopeStack) : ScopeType :=
  match [ScopeType.UNDEFINED, .SPECTRUMMODEL, .STAGE, .METHOD].find?
      (fun t => match s.level t with | some l => l + 1 == s.names.length | none => false) with
  | some t => t
  | none => .UNDEFINED

/-- The rules of `set_type_level` (scopestack.cpp:77-99): `true` if the type is refused. -/
def refused (s : ScopeStack) (t : ScopeType) : Bool :=
  match t with
  | .UNDEFINED => false
  | .SPECTRUMMODEL => s.hasType .STAGE
  | .STAGE => s.hasType .METHOD
  | .METHOD =>
    !s.hasType .STAGE ||
      (match s.level .STAGE with | some l => l + 1 != s.names.length | none => true)

/-- `set_type_level` (scopestack.cpp:72-106): the state after the call, and how it ends. -/
def setTypeLevel (s : ScopeStack) (t : ScopeType) : ScopeStack × Res Unit :=
  if t = .UNDEFINED then (s, .ok ())
  else if s.refused t then (s, .throw .SCOPESTACK_ERROR)
  else if s.hasType t then (s, .throw .SCOPESTACK_ERROR)
  else ({ s with level := fun t' => if t' = t then some s.names.length else s.level t' }, .ok ())

/-- `push_back` (scopestack.cpp:46-54), both overloads. Exhaustion of memory in the second line is not
modelled. -/
def push (s : ScopeStack) (value : String) (t : ScopeType) : ScopeStack × Res Unit :=
  match s.setTypeLevel t with
  | (s', .ok ()) => ({ s' with names := s'.names ++ [value] }, .ok ())
  | r => r

/-- `reset_type_level` (scopestack.cpp:108-116). -/
def resetTypeLevel (s : ScopeStack) : ScopeStack :=
  { s with level := fun t =>
      match s.level t with
      | some l => if l ≥ s.names.length then none else some l
      | none => none }

/-- `pop_back` (scopestack.cpp:56-59). `pop_back` of an empty `std::vector` is undefined behaviour. -/
def pop (s : ScopeStack) : ScopeStack × Res Unit :=
  if s.names = [] then (s, .ub)
  else (resetTypeLevel { s with names := s.names.dropLast }, .ok ())

end ScopeStack

/-! ## Scope guards -/

/-- Code working on the scope stack only through `CAutoScope` guards. `inspect` stands for anything that
reads the stack and decides on it (other computations, loops and branches); `attempt p h` is
`try { p } catch (...) { h }`. -/
inductive ScopeProg where
  | skip
  | fail (e : Err)
  | guard (name : String) (t : ScopeType) (body : ScopeProg)
  | seq (p q : ScopeProg)
  | attempt (p h : ScopeProg)
  | inspect (f : ScopeStack → ScopeProg)

/-- Execution with the constructor and destructor of `CAutoScope` (autoscope.cpp:44-59): a guard whose
constructor throws has no destructor run; otherwise the destructor runs however the body ends. Logging is
not modelled. -/
def ScopeProg.exec : ScopeProg → ScopeStack → ScopeStack × Res Unit
  | .skip, s => (s, .ok ())
  | .fail e, s => (s, .throw e)
  | .guard name t body, s =>
    match s.push name t with
    | (s1, .ok ()) =>
      match body.exec s1 with
      | (s2, .ub) => (s2, .ub)
      | (s2, r) =>
        match s2.pop with
        | (s3, .ok ()) => (s3, r)
        | (s3, r') => (s3, r')
    | (s1, r) => (s1, r)
  | .seq p q, s =>
    match p.exec s with
    | (s1, .ok ()) => q.exec s1
    | r => r
  | .attempt p h, s =>
    match p.exec s with
    | (s1, .throw _) => h.exec s1
    | r => r
  | .inspect f, s => (f s).exec s

/-! ## Scoped names -/

/-- `dot_fold` over a non-empty sequence (scopestore.cpp:53-58, 72-78). -/
def dotFold (first : String) (rest : List String) : String :=
  rest.foldl (fun a b => a ++ "." ++ b) first

/-- `CScopeStore::GetCurrentScopeName` (scopestore.cpp:46-61). -/
def currentScopeName (names : List String) : String :=
  match names with
  | [] => ""
  | f :: rest => dotFold f rest

/-- `CScopeStore::getCurrentScopeNameAt` (scopestore.cpp:63-81). `size() < depth` compares as unsigned
numbers, so a negative depth throws as well. -/
def currentScopeNameAt (names : List String) (depth : Int) : Res String :=
  if depth < 0 ∨ (names.length : Int) < depth then .throw .INTERNAL_ERROR
  else if depth = 0 then .ok ""
  else match names with
    | [] => .ub
    | f :: rest => .ok (dotFold f (rest.take (depth.toNat - 1)))

/-- The common end of `GetScopedName` and `GetScopedNameAt` (scopestore.cpp:86-92, 105-111). -/
def appendName (scope name : String) : String :=
  (if scope.isEmpty then scope else scope ++ ".") ++ name

/-- `CScopeStore::GetScopedName` (scopestore.cpp:83-93). -/
def scopedName (s : ScopeStack) (name : String) : String := appendName (currentScopeName s.names) name

/-- `CScopeStore::GetScopedNameAt(name, depth)` (scopestore.cpp:101-112). -/
def scopedNameAt (s : ScopeStack) (name : String) (depth : Int) : Res String := do
  let c ← currentScopeNameAt s.names depth
  pure (appendName c name)

/-- `CScopeStore::GetScopedNameAt(name, type)` (scopestore.cpp:95-99). -/
def scopedNameAtType (s : ScopeStack) (name : String) (t : ScopeType) : Res String := do
  let l ← s.getTypeLevel t
  scopedNameAt s name (l + 1)

end Amazed
