import Verif.Model.LineCat
import Verif.Model.Lya

set_option linter.unusedVariables false

/-! # Definition of the lines of a catalogue, with their profiles

`src/lib/line/line.cpp` (construction, copy, profile of a line), `src/lib/line/catalog.cpp` (`AddLineFromParams`, `GetFilteredList`,
`setLineAmplitude`, `setAsymProfileAndParams`, `convertLineProfiles2SYMIGM`), `src/lib/line/lineRatioCatalog.cpp` (construction).

A line owns its profile through a `std::unique_ptr`: the profiles are cells of a heap, a line holds an address. An address is never used twice, a
deleted cell is empty; reading or deleting through a null pointer, or through one whose cell is empty, is undefined. Numbers are elements of `K`: the parameters
that are not numbers are given only with a profile that ignores them. -/

namespace Amazed
namespace LineDef
open Amp (LType Force)
open LineCat (mapPut mapFind string2Type string2Force)
open Lya (AsymP)

/-- A profile object (lineprofile.h:84-139 and the derived classes): `cent` is `m_centeringMethod`; of `SYMIGM`, `igm` is the pointer to the extinction
curves, `idx` the index (`none`: `undefIdx`), `z` the redshift (`none`: NaN), `fit` is `m_igmFit`. -/
inductive Prof (K : Type)
  | sym (ns : K)
  | lor (ns : K)
  | asym (ns : K) (p : AsymP K) (cent : String)
  | asymFit (ns : K) (p : AsymP K) (cent : String)
  | symIgm (ns : K) (igm : Option Nat) (idx : Option Nat) (z : Option K) (fit : Bool)
deriving DecidableEq

/-- `isAsymFit() || isAsymFixed()` (catalog.cpp:179; lineprofile.h:119-120, lineprofileASYM.h:85, lineprofileASYMFIT.h:60-61). -/
def Prof.isAsymAny {K : Type} : Prof K → Bool
  | .asym .. => true
  | .asymFit .. => true
  | _ => false

/-- The members of a `CLine` (line.h:138-160); `P` is how the profile is held: an address in the program, the profile itself in the specification. -/
structure Rec (K P : Type) where
  id : ℤ
  strId : String
  name : String
  group : String
  velGroup : String
  type : LType
  force : Force
  pos : K
  offset : K
  offsetFit : Bool
  nom : K
  prof : P
deriving DecidableEq

/-- The same line with its profile held otherwise. -/
def Rec.withProf {K P Q : Type} (r : Rec K P) (q : Q) : Rec K Q :=
  ⟨r.id, r.strId, r.name, r.group, r.velGroup, r.type, r.force, r.pos, r.offset, r.offsetFit, r.nom, q⟩

/-- A line of the program. -/
abbrev Ln (K : Type) := Rec K (Option Nat)

/-- The heap of the profiles. -/
abbrev Heap (K : Type) := List (Option (Prof K))

/-- Outcome of a call that changes a state: done, left by an exception with the state reached, or undefined. -/
inductive Out (σ : Type)
  | done (s : σ)
  | thrown (e : Err) (s : σ)
  | ub

variable {K : Type} [Field K] [LinearOrder K]

/-- The default constructor of `CLine` (line.h:80, 138-160). -/
def Ln.default : Ln K := ⟨-1, "", "", "", "", .emission, .weak, 0, 0, false, 0, none⟩

/-- `*m_Profile`. -/
def read (h : Heap K) : Option Nat → Res (Prof K)
  | none => .ub
  | some a => match h[a]? with
    | some (some v) => .ok v
    | _ => .ub

/-- `delete` by a `unique_ptr`: nothing for a null pointer. -/
def free (h : Heap K) : Option Nat → Res (Heap K)
  | none => .ok h
  | some a => match h[a]? with
    | some (some _) => .ok (h.set a none)
    | _ => .ub

/-- `new`: the address is `h.length`. -/
def alloc (h : Heap K) (v : Prof K) : Heap K := h ++ [some v]

/-- `m_Profile.reset(new …)` (line.cpp:149-160): the new object is made before the old one is deleted. -/
def reset (h : Heap K) (r : Ln K) (v : Prof K) : Res (Heap K × Ln K) :=
  free (alloc h v) r.prof >>= fun h' => .ok (h', { r with prof := some h.length })

/-- The copy constructor (line.cpp:94-101). -/
def copyRec (h : Heap K) (r : Ln K) : Res (Heap K × Ln K) :=
  read h r.prof >>= fun v => .ok (alloc h v, { r with prof := some h.length })

/-- `operator=` (line.cpp:103-123): `m_Profile = other.m_Profile->Clone()`, the other members copied. -/
def assign (h : Heap K) (dst src : Ln K) : Res (Heap K × Ln K) :=
  read h src.prof >>= fun v => free (alloc h v) dst.prof >>= fun h' => .ok (h', { src with prof := some h.length })

/-- `CLineCatalogBase::m_List`. -/
abbrev Lines (K : Type) := List (ℤ × Ln K)

/-- `m_List[id] = line` (catalog.h:74, catalog.cpp:72): a missing entry is first made by the default constructor. -/
def putLine (id : ℤ) (src : Ln K) (h : Heap K) (m : Lines K) : Res (Heap K × Lines K) :=
  assign h ((mapFind id m).getD Ln.default) src >>= fun q => .ok (q.1, mapPut id q.2 m)

/-- `profileName.find("ASYMFIXED") != npos` (catalog.cpp:124, line.cpp:148). -/
def isFixedName (s : String) : Bool := decide ("ASYMFIXED".toList <:+: s.toList)

/-- The profile of `AddLineFromParams` (catalog.cpp:120-147): the given asymmetry parameters are read only for `ASYMFIXED`. -/
def profileAdd (ns : K) (name : String) (q : AsymP K) (igm : Option Nat) : Res (Prof K) :=
  if isFixedName name then .ok (.asym ns q "mean")
  else if name = "SYM" then .ok (.sym ns)
  else if name = "LOR" then .ok (.lor ns)
  else if name = "ASYM" then .ok (.asym ns ⟨1, 9 / 2, 0⟩ "none")
  else if name = "ASYMFIT" then .ok (.asymFit ns ⟨2, 2, 0⟩ "mean")
  else if name = "SYMIGM" then .ok (.symIgm ns igm none none false)
  else .throw .INTERNAL_ERROR

/-- The profile of `setProfileAndParams` (line.cpp:143-165). -/
def profileSet (ns : K) (name : String) (q : AsymP K) (igm : Option Nat) : Res (Prof K) :=
  if isFixedName name then .ok (.asym ns q "mean")
  else if name = "SYM" then .ok (.sym ns)
  else if name = "LOR" then .ok (.lor ns)
  else if name = "ASYM" then .ok (.asym ns q "none")
  else if name = "ASYMFIT" then .ok (.asymFit ns q "mean")
  else if name = "SYMIGM" then .ok (.symIgm ns igm none none false)
  else .throw .INTERNAL_ERROR

/-- What the user gives of a line (the arguments of `AddLineFromParams`, catalog.cpp:108-115). -/
structure Params (K : Type) where
  name : String
  pos : K
  type : String
  force : String
  profile : String
  asym : AsymP K
  group : String
  nom : K
  velGroup : String
  offset : K
  offsetFit : Bool
  id : ℤ
  strId : String
  igm : Option Nat

/-- `CLineCatalog`: number of sigmas of the support and lines (catalog.h:91-93). -/
structure Cat (K P : Type) where
  ns : K
  lines : List (ℤ × Rec K P)
deriving DecidableEq

/-- `AddLineFromParams` (catalog.cpp:108-151): the temporary line owns the new profile, is copied in the map and destroyed. -/
def addLine (a : Params K) (h : Heap K) (c : Cat K (Option Nat)) : Out (Heap K × Cat K (Option Nat)) :=
  match (do
    let t ← string2Type a.type
    let f ← string2Force a.force
    let v ← profileAdd c.ns a.profile a.asym a.igm
    pure (t, f, v) : Res (LType × Force × Prof K)) with
  | .throw e => .thrown e (h, c)
  | .ub => .ub
  | .ok (t, f, v) =>
    let tmp : Ln K := ⟨a.id, a.strId, a.name, a.group, a.velGroup, t, f, a.pos, a.offset, a.offsetFit, a.nom, some h.length⟩
    match (putLine a.id tmp (alloc h v) c.lines >>= fun q => free q.1 tmp.prof >>= fun h' => .ok (h', q.2) :
        Res (Heap K × Lines K)) with
    | .ok q => .done (q.1, ⟨c.ns, q.2⟩)
    | _ => .ub

/-- Copy of a `std::map` of lines: a copy of each entry. -/
def copyLines : Heap K → Lines K → Res (Heap K × Lines K)
  | h, [] => .ok (h, [])
  | h, x :: m => copyRec h x.2 >>= fun q => copyLines q.1 m >>= fun s => .ok (s.1, (x.1, q.2) :: s.2)

/-- `CLineRatioCatalog::CLineRatioCatalog` (lineRatioCatalog.cpp:44-50): a copy, then null nominal amplitudes. -/
def ratioLines (h : Heap K) (m : Lines K) : Res (Heap K × Lines K) :=
  copyLines h m >>= fun q => .ok (q.1, q.2.map fun x => (x.1, { x.2 with nom := 0 }))

/-- The test of `GetFilteredList` (catalog.cpp:68-71). -/
def kept {P : Type} (t : LType) (f : Force) (l : Rec K P) : Bool :=
  (decide (t = .all) || decide (t = l.type)) && (decide (f = .all) || decide (f = l.force))

/-- `GetFilteredList` (catalog.cpp:60-78): the lines kept are put one after the other in a new map `acc`. -/
def filterLines (t : LType) (f : Force) : Heap K → Lines K → Lines K → Res (Heap K × Lines K)
  | h, acc, [] => .ok (h, acc)
  | h, acc, x :: m =>
    if kept t f x.2 then putLine x.1 x.2 h acc >>= fun q => filterLines t f q.1 q.2 m
    else filterLines t f h acc m

/-- `setLineAmplitude` (catalog.cpp:153-164). -/
def setAmp (id : ℤ) (a : K) (h : Heap K) (c : Cat K (Option Nat)) : Out (Heap K × Cat K (Option Nat)) :=
  match mapFind id c.lines with
  | none => .thrown .INTERNAL_ERROR (h, c)
  | some l => .done (h, ⟨c.ns, mapPut id { l with nom := a } c.lines⟩)

/-- One iteration of `setAsymProfileAndParams` (catalog.cpp:177-181); `GetProfile` throws for a null profile (line.cpp:185-189). -/
def asymOne (ns : K) (name : String) (q : AsymP K) (h : Heap K) (r : Ln K) : Out (Heap K × Ln K) :=
  match r.prof with
  | none => .thrown .INTERNAL_ERROR (h, r)
  | some a =>
    match read h (some a) with
    | .ok v =>
      if v.isAsymAny then
        match profileSet ns name q none with
        | .throw e => .thrown e (h, r)
        | .ub => .ub
        | .ok w => match reset h r w with
          | .ok s => .done s
          | _ => .ub
      else .done (h, r)
    | _ => .ub

/-- `RESTLAMBDA_LYA` (defaults.h:27). -/
def restLya : K := 1216

/-- The lines that `convertLineProfiles2SYMIGM` takes (catalog.cpp:190-193). -/
def underLya {P : Type} (r : Rec K P) : Bool :=
  decide (r.type = .emission) && (decide (r.name = "LyAE") || decide (r.pos < restLya))

/-- One iteration of `convertLineProfiles2SYMIGM` (catalog.cpp:188-196). -/
def convOne (ns : K) (igm : Option Nat) (h : Heap K) (r : Ln K) : Out (Heap K × Ln K) :=
  if underLya r then
    match profileSet ns "SYMIGM" ⟨0, 0, 0⟩ igm with
    | .throw e => .thrown e (h, r)
    | .ub => .ub
    | .ok w => match reset h r w with
      | .ok s => .done s
      | _ => .ub
  else .done (h, r)

/-- The loop over the lines of a catalogue (catalog.cpp:177, 188): left by the first exception. -/
def eachLine (f : Heap K → Ln K → Out (Heap K × Ln K)) : Heap K → Lines K → Out (Heap K × Lines K)
  | h, [] => .done (h, [])
  | h, x :: m =>
    match f h x.2 with
    | .ub => .ub
    | .thrown e s => .thrown e (s.1, (x.1, s.2) :: m)
    | .done s => match eachLine f s.1 m with
      | .ub => .ub
      | .thrown e t => .thrown e (t.1, (x.1, s.2) :: t.2)
      | .done t => .done (t.1, (x.1, s.2) :: t.2)

/-- The calls: a new catalogue, a line added to catalogue `k`, copies of catalogue `k` (as it is, for line ratios, filtered), changes of catalogue `k`. -/
inductive Call (K : Type)
  | new (ns : K)
  | add (k : Nat) (a : Params K)
  | copy (k : Nat)
  | ratio (k : Nat)
  | filter (k : Nat) (t : LType) (f : Force)
  | amp (k : Nat) (id : ℤ) (a : K)
  | asym (k : Nat) (name : String) (q : AsymP K)
  | conv (k : Nat) (igm : Option Nat)

/-- The program: heap and catalogues. -/
structure World (K : Type) where
  heap : Heap K
  cats : List (Cat K (Option Nat))

/-- The catalogue `k` replaced. -/
def World.put (w : World K) (k : Nat) (s : Heap K × Cat K (Option Nat)) : World K := ⟨s.1, w.cats.set k s.2⟩

/-- A call on the catalogue `k`. -/
def World.on (w : World K) (k : Nat) (f : Heap K → Cat K (Option Nat) → Out (Heap K × Cat K (Option Nat))) : Out (World K) :=
  match w.cats[k]? with
  | none => .ub
  | some c => match f w.heap c with
    | .ub => .ub
    | .thrown e s => .thrown e (w.put k s)
    | .done s => .done (w.put k s)

/-- A catalogue made from the catalogue `k`. -/
def World.from (w : World K) (k : Nat) (f : Heap K → Lines K → Res (Heap K × Lines K)) : Out (World K) :=
  match w.cats[k]? with
  | none => .ub
  | some c => match f w.heap c.lines with
    | .ok s => .done ⟨s.1, w.cats ++ [⟨c.ns, s.2⟩]⟩
    | _ => .ub

/-- The loop `f` over the lines of the catalogue. -/
def inCat (f : K → Heap K → Lines K → Out (Heap K × Lines K)) (h : Heap K) (c : Cat K (Option Nat)) : Out (Heap K × Cat K (Option Nat)) :=
  match f c.ns h c.lines with
  | .ub => .ub
  | .thrown e s => .thrown e (s.1, ⟨c.ns, s.2⟩)
  | .done s => .done (s.1, ⟨c.ns, s.2⟩)

/-- A call of the API (catalog.h:66-93, 103-116; lineRatioCatalog.h). -/
def World.call (w : World K) : Call K → Out (World K)
  | .new ns => .done ⟨w.heap, w.cats ++ [⟨ns, []⟩]⟩
  | .add k a => w.on k (addLine a)
  | .copy k => w.from k copyLines
  | .ratio k => w.from k ratioLines
  | .filter k t f => w.from k (fun h m => filterLines t f h [] m)
  | .amp k id a => w.on k (setAmp id a)
  | .asym k name q => w.on k (inCat fun ns => eachLine (asymOne ns name q))
  | .conv k igm => w.on k (inCat fun ns => eachLine (convOne ns igm))

/-- A history: the caller goes on after an exception. The exceptions are returned in their order. -/
def World.run : World K → List (Call K) → Option (World K × List (Option Err))
  | w, [] => some (w, [])
  | w, c :: cs => match w.call c with
    | .ub => none
    | .done w' => (World.run w' cs).map fun r => (r.1, none :: r.2)
    | .thrown e w' => (World.run w' cs).map fun r => (r.1, some e :: r.2)

/-- No catalogue yet. -/
def World.empty : World K := ⟨[], []⟩

end LineDef
end Amazed
