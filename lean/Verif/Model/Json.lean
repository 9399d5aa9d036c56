import Mathlib.Data.Rat.Defs

/-!
JSON values, Python dictionaries and the fragment of JSON-Schema used by the parameter files.
-/

set_option linter.unusedVariables false

namespace Amazed

/-- A parsed JSON value (`json.loads`). An object is a Python dict in insertion order. Floats are exact rationals
(simplification). -/
inductive J
  | null
  | bool (b : Bool)
  | num (q : ℚ)
  | str (s : String)
  | arr (l : List J)
  | obj (o : List (String × J))

/-- A Python dict with string keys, in insertion order. -/
abbrev Dict := List (String × J)

namespace Dict

/-- `d.get(k)`. -/
def get (k : String) : Dict → Option J
  | [] => none
  | (k', v) :: r => if k' = k then some v else get k r

/-- `d[k] = v`: in place if the key is there, else at the end. -/
def put (k : String) (v : J) : Dict → Dict
  | [] => [(k, v)]
  | (k', w) :: r => if k' = k then (k, v) :: r else (k', w) :: put k v r

/-- The dict left by `d.pop(k, None)`. -/
def del (k : String) : Dict → Dict
  | [] => []
  | (k', w) :: r => if k' = k then del k r else (k', w) :: del k r

end Dict

/-- `value.get(k)` when the value is an object, else nothing. -/
def J.field (k : String) : J → Option J
  | .obj o => Dict.get k o
  | _ => none

/-- The JSON-Schema types; `unknown` is any other word (`jsonschema` raises `UnknownType` when it meets it). -/
inductive Ty
  | null | boolean | number | integer | string | array | object | unknown

/-- `type`: an integer is a number of integral value; no value passes an unknown type. -/
def Ty.has : Ty → J → Bool
  | .null, .null => true
  | .boolean, .bool _ => true
  | .number, .num _ => true
  | .integer, .num q => decide (q.den = 1)
  | .string, .str _ => true
  | .array, .arr _ => true
  | .object, .obj _ => true
  | _, _ => false

mutual
/-- A schema: `type` (empty = any), `enum` (of strings; `none` in the list is JSON `null`), `required`, whether
`additionalProperties` is `false`, `properties`, `patternProperties` of the form `^prefix`, and `items` (at most
one). The keywords `minItems`, `maxItems`, `prefixItems`, `items: false` and `minimum` are dropped (simplification:
the model accepts at least what the real schema accepts). -/
inductive Sch
  | mk (types : List Ty) (enum : Option (List (Option String))) (required : List String) (closed : Bool)
      (props pats items : SchL)
/-- A list of named schemas. -/
inductive SchL
  | nil
  | cons (key : String) (s : Sch) (r : SchL)
end

/-- The names of a list of named schemas. -/
def SchL.keys : SchL → List String
  | .nil => []
  | .cons k _ r => k :: r.keys

/-- The schema of a name. -/
def SchL.find (key : String) : SchL → Option Sch
  | .nil => none
  | .cons k s r => if k = key then some s else r.find key

/-- `type`. -/
def tyOk : List Ty → J → Bool
  | [], _ => true
  | l, j => l.any (·.has j)

/-- `enum`. -/
def enOk : Option (List (Option String)) → J → Bool
  | none, _ => true
  | some l, .str s => l.contains (some s)
  | some l, .null => l.contains none
  | some _, _ => false

/-- A key that begins with a prefix. -/
def begins (p k : String) : Bool := p.toList.isPrefixOf k.toList

/-- `required`. -/
def reqOk (rq : List String) (o : Dict) : Bool := rq.all fun k => (Dict.get k o).isSome

/-- `additionalProperties: false`. -/
def closedOk (closed : Bool) (ps pt : SchL) (o : Dict) : Bool :=
  !closed || o.all fun e => ps.keys.contains e.1 || pt.keys.any (begins · e.1)

mutual
/-- Validation of a value (`jsonschema.validate`). -/
def Sch.ok : Sch → J → Bool
  | .mk ty en rq cl ps pt it, j =>
    tyOk ty j && enOk en j && (match j with
      | .obj o => reqOk rq o && closedOk cl ps pt o && ps.okProps o && pt.okPats o
      | .arr l => it.okItems l
      | _ => true)
/-- `properties`. -/
def SchL.okProps : SchL → Dict → Bool
  | .nil, _ => true
  | .cons k s r, o => (match Dict.get k o with | some v => s.ok v | none => true) && r.okProps o
/-- `patternProperties`. -/
def SchL.okPats : SchL → Dict → Bool
  | .nil, _ => true
  | .cons p s r, o => (o.all fun e => !begins p e.1 || s.ok e.2) && r.okPats o
/-- `items`. -/
def SchL.okItems : SchL → List J → Bool
  | .nil, _ => true
  | .cons _ s r, l => l.all (fun v => s.ok v) && r.okItems l
end

end Amazed
