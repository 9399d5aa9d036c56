import Verif.Model.EltList
import Verif.Model.Amp
import Mathlib.Data.String.Basic

set_option linter.unusedVariables false

/-! # Line catalogues and the elements made from them

`RedshiftLibrary/src/lib/line/catalog.cpp`, `RedshiftLibrary/line/catalog.h`, `src/lib/line/lineRatioCatalog.cpp`,
`src/lib/line/line.cpp` (types and forces), `src/lib/linemodel/lmeltlistvector.cpp` (loading of a catalogue, search of a
line) and `src/lib/linemodel/elementparam.cpp` (construction).

A `std::map` is the list of its entries in the order of the keys. Of a line the identifiers, names, groups, type, force,
position and nominal amplitude are kept; its profile and offsets are left out. -/

namespace Amazed
namespace LineCat
open Amp (LType Force)

/-- The parts of a `CLine` (line.h:60-) read here. -/
structure Line (K : Type) where
  id : ℤ
  strId : String
  name : String
  group : String
  velGroup : String
  type : LType
  force : Force
  pos : K
  nom : K
deriving DecidableEq

/-- `string2Type` (line.cpp:57-68); `front()` of an empty string is undefined. -/
def string2Type (s : String) : Res LType :=
  if s = "no" then .ok .all
  else match s.toList with
    | [] => .ub
    | c :: _ => if c = 'E' then .ok .emission else if c = 'A' then .ok .absorption else .throw .BAD_LINE_TYPE

/-- `string2Force` (line.cpp:70-81). -/
def string2Force (s : String) : Res Force :=
  if s = "no" then .ok .all
  else match s.toList with
    | [] => .ub
    | c :: _ => if c = 'W' then .ok .weak else if c = 'S' then .ok .strong else .throw .BAD_LINE_FORCE

/-- `m[k] = v` on a `std::map`. -/
def mapPut {G V : Type} [LinearOrder G] (k : G) (v : V) : List (G × V) → List (G × V)
  | [] => [(k, v)]
  | (k', w) :: m => if k < k' then (k, v) :: (k', w) :: m else if k = k' then (k, v) :: m else (k', w) :: mapPut k v m

/-- `m.find(k)`. -/
def mapFind {G V : Type} [DecidableEq G] (k : G) : List (G × V) → Option V
  | [] => none
  | (k', w) :: m => if k = k' then some w else mapFind k m

/-- `CLineCatalogBase::m_List` (catalog.h:89). -/
abbrev Cat (K : Type) := List (ℤ × Line K)

variable {K : Type}

/-- `Add` (catalog.h:70). -/
def add (c : Cat K) (l : Line K) : Cat K := mapPut l.id l c

/-- The test of `GetFilteredList` (catalog.cpp:68-72). -/
def kept (t : LType) (f : Force) (l : Line K) : Bool :=
  (decide (t = .all) || decide (t = l.type)) && (decide (f = .all) || decide (f = l.force))

/-- `GetFilteredList` with a type and a force (catalog.cpp:60-78). -/
def filtered (t : LType) (f : Force) (c : Cat K) : Cat K :=
  c.foldl (fun r x => if kept t f x.2 then mapPut x.1 x.2 r else r) []

/-- `GetFilteredList` with strings (catalog.cpp:80-88). -/
def filteredStr (t f : String) (c : Cat K) : Res (Cat K) :=
  string2Type t >>= fun t => string2Force f >>= fun f => .ok (filtered t f c)

/-- `undefStr` (common/defaults.h:17). -/
def undefStr : String := "undefined"

/-- The group of a line (catalog.cpp:98-101). -/
def groupKey (l : Line K) : String := if l.group = undefStr then "single_" ++ l.strId else l.group

/-- `ConvertToGroupList` (catalog.cpp:90-106). -/
def toGroups (c : Cat K) : List (String × List (Line K)) := c.foldl (fun m x => EltList.mapPush (groupKey x.2) x.2 m) []

/-- `setLineAmplitude` (catalog.cpp:153-164). -/
def setLineAmplitude (id : ℤ) (a : K) (c : Cat K) : Res (Cat K) :=
  match mapFind id c with
  | none => .throw .INTERNAL_ERROR
  | some l => .ok (mapPut id { l with nom := a } c)

/-- `CLineRatioCatalog` (lineRatioCatalog.h:57-80): catalogue, name, velocities, prior and dust index. -/
structure Ratio (K : Type) where
  cat : Cat K
  name : String
  vel : List (String × K)
  prior : K
  ism : ℤ

/-- The constructor (lineRatioCatalog.cpp:44-50). -/
def Ratio.new [Zero K] [One K] (name : String) (c : Cat K) : Ratio K := ⟨c.map fun x => (x.1, { x.2 with nom := 0 }), name, [], 1, 0⟩

/-- `addVelocity` (lineRatioCatalog.cpp:52-56). -/
def Ratio.addVelocity (g : String) (v : K) (r : Ratio K) : Res (Ratio K) :=
  match mapFind g r.vel with
  | some _ => .throw .INTERNAL_ERROR
  | none => .ok { r with vel := mapPut g v r.vel }

/-- `getVelocity` (lineRatioCatalog.cpp:61-63), with `std::map::at`. -/
def Ratio.getVelocity (g : String) (r : Ratio K) : Res K := match mapFind g r.vel with
  | some v => .ok v
  | none => .throw .STD_OUT_OF_RANGE

/-- What the constructor of `TLineModelElementParam` (elementparam.cpp:49-75, 82-95) sets: lines, type and sign taken from the first line,
nominal amplitudes, fitted amplitudes and errors, map from the identifiers to the indexes, and the flags over all the spectra
that `AddElementParam` (lmeltlistvector.cpp:127-128) sets. -/
structure El (K : Type) where
  lines : List (Line K)
  type : LType
  isEmission : Bool
  nominal : List K
  fa : List (Option K)
  fastd : List (Option K)
  ids : List (ℤ × Nat)
  gOutside : Bool
  gOutsideLine : List Bool

/-- The map from the identifiers to the indexes (elementparam.cpp:61-66), from index `k`. -/
def idMap : List (Line K) → Nat → List (ℤ × Nat) → List (ℤ × Nat)
  | [], _, m => m
  | l :: ls, k, m => idMap ls (k + 1) (mapPut l.id k m)

/-- `AddElementParam` (lmeltlistvector.cpp:115-129) with the constructor of the element; `widthOk` tells whether the type of line
width is known (elementparam.cpp:79-88). -/
def newElt (widthOk : Bool) (lines : List (Line K)) : Res (El K) :=
  match lines with
  | [] => .throw .INTERNAL_ERROR
  | l :: ls =>
    if widthOk = false then .throw .INTERNAL_ERROR
    else .ok ⟨lines, l.type, decide (l.type = .emission), lines.map (·.nom), List.replicate lines.length none,
      List.replicate lines.length none, idMap lines 0 [], false, List.replicate lines.length false⟩

/-- A loop adding elements. -/
def newElts (widthOk : Bool) : List (List (Line K)) → Res (List (El K))
  | [] => .ok []
  | g :: gs => newElt widthOk g >>= fun e => newElts widthOk gs >>= fun es => .ok (e :: es)

/-- `LoadCatalog` (lmeltlistvector.cpp:145-150). -/
def load (widthOk : Bool) (c : Cat K) : Res (List (El K)) := newElts widthOk ((toGroups c).map (·.2))

/-- `LoadCatalogOneLineByElement` (lmeltlistvector.cpp:152-156). -/
def loadOneLine (widthOk : Bool) (c : Cat K) : Res (List (El K)) := newElts widthOk (c.map fun x => [x.2])

/-- The lines of a type (lmeltlistvector.cpp:173-177). -/
def ofType (t : LType) (c : Cat K) : List (Line K) := (c.map (·.2)).filter fun l => decide (l.type = t)

/-- `LoadCatalogTwoMultilinesAE` (lmeltlistvector.cpp:167-183). -/
def loadAE (widthOk : Bool) (c : Cat K) : Res (List (El K)) :=
  newElts widthOk ((([.absorption, .emission].map fun t => ofType t c)).filter fun l => decide (l.length > 0))

/-- `findElementIndex` with an identifier (lmeltlistvector.cpp:206-219) and `getLineIndex` (element.cpp:80-87), from element
`k`. -/
def findId (id : ℤ) : List (El K) → Nat → Option (Nat × Nat)
  | [], _ => none
  | e :: es, k => match mapFind id e.ids with
    | some i => some (k, i)
    | none => findId id es (k + 1)

/-- The element as the amplitude code reads it (`Amp.Elt`); the flags of the current spectrum are given. -/
def El.toAmp (e : El K) (absLimit : K) (out : Bool) (outL : List Bool) : Amp.Elt K :=
  ⟨e.lines.map fun l => ⟨l.name, l.force⟩, e.type, e.isEmission, e.nominal, e.fa, e.fastd, absLimit, out, outL, e.gOutside, e.gOutsideLine⟩

end LineCat
end Amazed
