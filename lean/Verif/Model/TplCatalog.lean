import Verif.Basic

/-! # Template catalogue (`src/lib/spectrum/template/catalog.cpp`, `spectrum/template/catalog.h`) and its two users that
derive templates: `src/lib/spectrum/logrebinning.cpp` (log-sampled templates) and `src/lib/linemodel/templatesortho.cpp`
(orthogonalised templates)

A template is a value of an abstract type `τ` with a name and a category; a null pointer is `none`. Exceptions of the
standard library (`.at()`) are `STD_OUT_OF_RANGE`. Every operation returns the state it leaves, also when it throws. -/

namespace Amazed
namespace TplCat

/-- `CTemplateCatalog` (catalog.h:101-130): the four dictionaries `m_ListMatrix[ortho][log]`, the two mode flags and
`m_ortho_LSFWidth` (`none` for NaN). -/
structure Cat (τ L : Type) where
  lists : Bool → Bool → String → Option (List (Option τ))
  ortho : Bool
  log : Bool
  lsf : Option L

/-- Name and category of a template. -/
structure Names (τ : Type) where
  name : τ → String
  category : τ → String

section
variable {τ L : Type}

/-- A new catalogue (catalog.cpp:53). -/
def make (sampling : Bool) : Cat τ L := ⟨fun _ _ _ => none, false, sampling, none⟩

/-- The list of a category, empty when the category has no entry. -/
def get (c : Cat τ L) (o l : Bool) (cat : String) : List (Option τ) := (c.lists o l cat).getD []

/-- Assignment of the list of a category. -/
def put (c : Cat τ L) (o l : Bool) (cat : String) (v : List (Option τ)) : Cat τ L :=
  { c with lists := fun o' l' cat' => if o' = o ∧ l' = l ∧ cat' = cat then some v else c.lists o' l' cat' }

/-- `GetTemplateCount(category, opt_ortho, opt_logsampling)` (catalog.cpp:133-139). -/
def count (c : Cat τ L) (cat : String) (o l : Bool) : Nat :=
  match c.lists o l cat with
  | none => 0
  | some v => v.length

/-- `GetNonNullTemplateCount` (catalog.cpp:141-155). -/
def nonNull (c : Cat τ L) (cat : String) (o l : Bool) : Nat :=
  if count c cat o l = 0 then 0 else ((get c o l cat).filter (·.isSome)).length

/-- `a; b` on a state, `b` being skipped when `a` throws. -/
def andThen (p : Cat τ L × Res Unit) (f : Cat τ L → Cat τ L × Res Unit) : Cat τ L × Res Unit :=
  match p.2 with
  | .ok _ => f p.1
  | .throw e => (p.1, .throw e)
  | .ub => (p.1, .ub)

/-- `ClearTemplates(category, true, l, _, true)` (catalog.cpp:196-236): an orthogonal list; the LSF width is forgotten
when the other orthogonal list of the category is empty as well. -/
def clearAllOrtho (c : Cat τ L) (cat : String) (l : Bool) : Cat τ L :=
  if count c cat true l = 0 then c
  else if count (put c true l cat []) cat true (!l) = 0 then { put c true l cat [] with lsf := none }
  else put c true l cat []

/-- `ClearTemplates(category, false, true, _, true)` (catalog.cpp:196-236): the log-sampled list, then its orthogonal one. -/
def clearAllLog (c : Cat τ L) (cat : String) : Cat τ L :=
  if count c cat false true = 0 then c else clearAllOrtho (put c false true cat []) cat true

/-- `ClearTemplates(category, false, false, _, true)` (catalog.cpp:196-236): the original list, then its orthogonal one,
then the log-sampled one. -/
def clearAllOrig (c : Cat τ L) (cat : String) : Cat τ L :=
  if count c cat false false = 0 then c
  else clearAllLog (clearAllOrtho (put c false false cat []) cat false) cat

/-- `ClearTemplateList(category, opt_ortho, opt_logsampling)` (catalog.cpp:191-194). The recursion of `ClearTemplates` is
unfolded by kind of list. -/
def clearAll (c : Cat τ L) (cat : String) (o l : Bool) : Cat τ L :=
  if o = true then clearAllOrtho c cat l else if l = true then clearAllLog c cat else clearAllOrig c cat

/-- `tplList.at(category).at(i) = nullptr; if all null, clear the list` (catalog.cpp:214-219). -/
def dropOne (c : Cat τ L) (cat : String) (o l : Bool) (i : Int) : Cat τ L × Res Unit :=
  if 0 ≤ i ∧ i < (get c o l cat).length then
    let c1 := put c o l cat ((get c o l cat).set i.toNat none)
    (if nonNull c1 cat o l = 0 then clearAll c1 cat o l else c1, .ok ())
  else (c, .throw .STD_OUT_OF_RANGE)

/-- `ClearTemplates(category, true, l, i)` (catalog.cpp:196-236). -/
def clearOneOrtho (c : Cat τ L) (cat : String) (l : Bool) (i : Int) : Cat τ L × Res Unit :=
  if count c cat true l = 0 then (c, .ok ()) else dropOne c cat true l i

/-- `ClearTemplates(category, false, true, i)` (catalog.cpp:196-236). -/
def clearOneLog (c : Cat τ L) (cat : String) (i : Int) : Cat τ L × Res Unit :=
  if count c cat false true = 0 then (c, .ok ())
  else andThen (dropOne c cat false true i) fun c => clearOneOrtho c cat true i

/-- `ClearTemplates(category, false, false, i)` (catalog.cpp:196-236). -/
def clearOneOrig (c : Cat τ L) (cat : String) (i : Int) : Cat τ L × Res Unit :=
  if count c cat false false = 0 then (c, .ok ())
  else andThen (andThen (dropOne c cat false false i) fun c => clearOneOrtho c cat false i) fun c => clearOneLog c cat i

/-- `ClearTemplates(category, opt_ortho, opt_logsampling, i)` (catalog.cpp:196-236). -/
def clearOne (c : Cat τ L) (cat : String) (o l : Bool) (i : Int) : Cat τ L × Res Unit :=
  if o = true then clearOneOrtho c cat l i else if l = true then clearOneLog c cat i else clearOneOrig c cat i

/-- `Add` (catalog.cpp:168-173). -/
def add (nm : Names τ) (c : Cat τ L) (t : τ) : Cat τ L × Res Unit :=
  if nm.category t = "" then (c, .throw .INTERNAL_ERROR)
  else (put c c.ortho c.log (nm.category t) (get c c.ortho c.log (nm.category t) ++ [some t]), .ok ())

/-- `SetTemplate` (catalog.cpp:175-189). -/
def setTemplate (nm : Names τ) (c : Cat τ L) (t : τ) (i : Int) : Cat τ L × Res Unit :=
  andThen (clearOne c (nm.category t) c.ortho c.log i) fun c1 =>
    if count c1 (nm.category t) c1.ortho c1.log = 0 then add nm c1 t
    else if 0 ≤ i ∧ i < (get c1 c1.ortho c1.log (nm.category t)).length then
      (put c1 c1.ortho c1.log (nm.category t) ((get c1 c1.ortho c1.log (nm.category t)).set i.toNat (some t)), .ok ())
    else (c1, .throw .STD_OUT_OF_RANGE)

/-- `GetTemplate(category, i, opt_ortho, opt_logsampling)` (catalog.h:145-149). -/
def getTemplate (c : Cat τ L) (cat : String) (i : Int) (o l : Bool) : Res (Option τ) :=
  match c.lists o l cat with
  | none => .throw .STD_OUT_OF_RANGE
  | some v =>
    if 0 ≤ i then (match v[i.toNat]? with | some t => .ok t | none => .throw .STD_OUT_OF_RANGE) else .throw .STD_OUT_OF_RANGE

/-- The inner loop of `GetTemplateByName` (catalog.cpp:99-101): a null template is dereferenced. -/
def findName (nm : Names τ) (name : String) : List (Option τ) → Res (Option τ)
  | [] => .ok none
  | none :: _ => .ub
  | some t :: ts => if nm.name t = name then .ok (some t) else findName nm name ts

/-- `GetTemplateByName` (catalog.cpp:90-106). -/
def getByName (nm : Names τ) (c : Cat τ L) (name : String) (o l : Bool) : List String → Res τ
  | [] => .throw .INTERNAL_ERROR
  | cat :: cats => findName nm name (get c o l cat) >>= fun r =>
    match r with
    | some t => .ok t
    | none => getByName nm c name o l cats

/-- `GetTemplateList_` (catalog.cpp:75-88). -/
def templateList (c : Cat τ L) (o l : Bool) (cats : List String) : List (Option τ) := cats.flatMap (get c o l)

/-- The operations that change a catalogue (the two flags are public members). -/
inductive Op (τ : Type) where
  | mode (o l : Bool)
  | add (t : τ)
  | set (t : τ) (i : Int)
  | clearAll (cat : String) (o l : Bool)
  | clearOne (cat : String) (o l : Bool) (i : Int)

/-- One call. -/
def step (nm : Names τ) (c : Cat τ L) : Op τ → Cat τ L × Res Unit
  | .mode o l => ({ c with ortho := o, log := l }, .ok ())
  | .add t => add nm c t
  | .set t i => setTemplate nm c t i
  | .clearAll cat o l => (clearAll c cat o l, .ok ())
  | .clearOne cat o l i => clearOne c cat o l i

/-- A history of calls, exceptions being caught by the caller. -/
def run (nm : Names τ) (c : Cat τ L) (ops : List (Op τ)) : Cat τ L := ops.foldl (fun c o => (step nm c o).1) c

/-! ## Log-sampled templates -/

/-- The loop over an existing log-sampled list in `logRebinTemplateCatalog` (logrebinning.cpp:343-366), from index `i` with
`n` iterations left; `need` is `isRebinningNeeded`, `reb` is `loglambdaRebinTemplate`. The mode flag is set to log again
before the template is replaced, and is left not log when the search by name throws. -/
def rebinLoop (nm : Names τ) (need : τ → Bool) (reb : τ → Res τ) (cat : String) :
    Nat → Nat → Cat τ L → Cat τ L × Res Unit
  | 0, _, c => (c, .ok ())
  | n + 1, i, c =>
    match getTemplate c cat i c.ortho c.log with
    | .throw e => (c, .throw e)
    | .ub => (c, .ub)
    | .ok none => (c, .ub)
    | .ok (some t) =>
      if need t = false then rebinLoop nm need reb cat n (i + 1) c
      else
        match getByName nm c (nm.name t) c.ortho false [cat] with
        | .throw e => ({ c with log := false }, .throw e)
        | .ub => (c, .ub)
        | .ok t0 =>
          match reb t0 with
          | .throw e => (c, .throw e)
          | .ub => (c, .ub)
          | .ok t' => andThen (setTemplate nm c t' i) fun c => rebinLoop nm need reb cat n (i + 1) c

/-- `tplcat->Add(f(*tpl))` for all templates of a list (logrebinning.cpp:374-378). -/
def addLoop (nm : Names τ) (f : τ → Res τ) : List (Option τ) → Cat τ L → Cat τ L × Res Unit
  | [], c => (c, .ok ())
  | none :: _, c => (c, .ub)
  | some t :: ts, c =>
    match f t with
    | .throw e => (c, .throw e)
    | .ub => (c, .ub)
    | .ok t' => andThen (add nm c t') fun c => addLoop nm f ts c

/-- The part of `logRebinTemplateCatalog` that changes the catalogue (logrebinning.cpp:334-380). -/
def rebinCatalog (nm : Names τ) (need : τ → Bool) (reb : τ → Res τ) (c : Cat τ L) (cat : String) : Cat τ L × Res Unit :=
  let c1 := { c with log := true }
  andThen (if count c1 cat c1.ortho true > 0 then rebinLoop nm need reb cat (count c1 cat c1.ortho true) 0 c1
    else addLoop nm reb (get c1 c1.ortho false cat) c1) fun c2 => ({ c2 with log := false }, .ok ())

/-! ## Orthogonalised templates -/

/-- The loop of `Orthogonalize` over the templates of one sampling (templatesortho.cpp:86-99), from index `i`; `orth` is
`OrthogonalizeTemplate` with the current LSF. The catalogue is in orthogonal mode. -/
def orthoLoop (nm : Names τ) (orth : τ → Res τ) (cat : String) (partial_ : Bool) :
    Nat → List (Option τ) → Cat τ L → Cat τ L × Res Unit
  | _, [], c => (c, .ok ())
  | _, none :: _, c => (c, .ub)
  | i, some t :: ts, c =>
    if partial_ = true then
      match getTemplate c cat i c.ortho c.log with
      | .throw e => (c, .throw e)
      | .ub => (c, .ub)
      | .ok (some _) => (c, .ok ())
      | .ok none =>
        match orth t with
        | .throw e => (c, .throw e)
        | .ub => (c, .ub)
        | .ok t' => andThen (setTemplate nm c t' i) fun c => orthoLoop nm orth cat partial_ (i + 1) ts c
    else
      match orth t with
      | .throw e => (c, .throw e)
      | .ub => (c, .ub)
      | .ok t' => andThen (add nm c t') fun c => orthoLoop nm orth cat partial_ (i + 1) ts c

/-- One iteration of the loop over the samplings in `Orthogonalize` (templatesortho.cpp:74-100). -/
def orthoSampling (nm : Names τ) (orth : τ → Res τ) (cat : String) (s : Bool) (c : Cat τ L) : Cat τ L × Res Unit :=
  let c1 := { c with log := s, ortho := true }
  orthoLoop nm orth cat (s && decide (count c1 cat true s ≠ 0)) 0 (get c1 false s cat) c1

/-- `hasLogRebinnedTemplatesChanged` (templatesortho.cpp:150-178). -/
def logChanged (c : Cat τ L) (cat : String) : Bool :=
  if count c cat false true = 0 then false
  else if count c cat true true > 0 then decide (nonNull c cat true true ≠ count c cat true true)
  else true

/-- `prepareTplCatForOrthogonalization` (templatesortho.cpp:107-148): the new state, whether the orthogonalisation is needed
and the samplings; `w` is the width of the current LSF. (The mode flags changed by `hasLogRebinnedTemplatesChanged` are
overwritten by the caller.) -/
def prepare [DecidableEq L] (w : L) (c : Cat τ L) (cat : String) : Cat τ L × Bool × List Bool :=
  let c1 := { c with lsf := some w }
  if count c cat true false = 0 then (c1, true, [false, true])
  else if c.lsf ≠ some w then (clearAll (clearAll c1 cat true false) cat true true, true, [false, true])
  else if logChanged c1 cat then (c1, true, [true]) else (c1, false, [false, true])

/-- `Orthogonalize` (templatesortho.cpp:44-105). -/
def orthogonalize [DecidableEq L] (nm : Names τ) (orth : L → τ → Res τ) (w : L) (c : Cat τ L) (cat : String) :
    Cat τ L × Res Unit :=
  let p := prepare w c cat
  if p.2.1 = false then ({ p.1 with log := c.log, ortho := false }, .ok ())
  else
    andThen (p.2.2.foldl (fun q s => andThen q (orthoSampling nm (orth w) cat s)) (p.1, .ok ())) fun c2 =>
      ({ c2 with log := c.log, ortho := false }, .ok ())

/-- The loop of `OrthogonalizeTemplates` over the spectrum models to orthogonalise (inputcontext.cpp:156-161): `orthogonalize`
with the same LSF for every category; an exception ends the loop. -/
def orthogonalizeAll [DecidableEq L] (nm : Names τ) (orth : L → τ → Res τ) (w : L) :
    List String → Cat τ L → Cat τ L × Res Unit
  | [], c => (c, .ok ())
  | cat :: cats, c => andThen (orthogonalize nm orth w c cat) (orthogonalizeAll nm orth w cats)

end
end TplCat
end Amazed
