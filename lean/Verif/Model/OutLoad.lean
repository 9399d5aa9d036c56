import Verif.Basic

/-!
# Loading of the results of a spectrum

Models the loading of the result store in an output: `load_all`, `load_root`, `load_object_level`, `fill_object_dataset`, `load_method_level`,
`load_candidate_level`, `build_candidate_dataset`, `filter_datasets`, `filter_dataset_attributes`, `get_attribute`, `has_attribute`, `get_method`
(`pylibamazed/python/pylibamazed/AbstractOutput.py`), on the table of the results (`OutputSpecifications.py`,
`auxdir/pylibamazed/results_specifications.csv`), and the access to the source of `ResultStoreOutput.py`.

The result store is arbitrary: it says which datasets and attributes it has, and gives their values (`Src`); an attribute it has is read without
error. A placeholder of the table is a mark of the row: `<ObsID>` ends the name of a dataset, `<MethodType>` and `<ObjectType>` begin the name of
an attribute, `<BandName>` is a name replaced by that of the band (no other use in the table). Dictionaries are functions: their order is not
modelled.
-/

set_option autoImplicit true
namespace Amazed
namespace OutLoad

/-- Levels of the results (column `level`). -/
inductive Level | root | object | method | candidate
deriving DecidableEq, Repr

/-- Placeholder in the name of an attribute. -/
inductive Ph | plain | band | meth | obj
deriving DecidableEq, Repr

/-- Name of a dataset: `multi` when `<ObsID>` ends it. -/
structure DsName where
  base : String
  multi : Bool
deriving DecidableEq, Repr

/-- A row of the table (results_specifications.csv); `first`: the name contains `Firstpass`. -/
structure Row where
  name : String
  ph : Ph
  ds : DsName
  level : Level
  ext : Bool
  first : Bool
deriving DecidableEq, Repr

/-- The table, the option `extended_results`, and what is read in the parameters: the models, the methods, `skipSecondPass`, the identifiers of the
observations, and the photometric bands. -/
structure Cfg where
  rows : List Row
  extended : Bool
  models : List String
  zMethod : String → Option String
  lmMethod : String → Option String
  skip : String → Bool
  obs : List String
  bands : List String

/-- A request to the source (the arguments of `has_attribute_in_source` and `get_attribute_from_source`). -/
structure Query where
  obj : String
  stage : String
  method : String
  row : Row
  rank : Option Nat
  band : Option String
  obs : String
deriving DecidableEq, Repr

/-- The source of the results. -/
structure Src (V : Type) where
  has : Query → Bool
  get : Query → V
  hasDs : String → String → String → String → Bool
  hasCand : String → String → String → DsName → Bool
  nb : String → String → Nat

/-- A dictionary of attributes. -/
abbrev Dict (V : Type) := String → Option V

/-- A loaded dataset: attributes, or a list of them by rank. -/
inductive Ds (V : Type)
  | dict (d : Dict V)
  | cands (l : List (Dict V))

/-- `object_results[object_type]`. -/
abbrev Obj (V : Type) := String → Option (Ds V)

/-- `d[k] = v`. -/
def upd (f : String → Option A) (k : String) (v : A) : String → Option A := fun x => if x = k then some v else f x

/-- `dataset.replace("<ObsID>", obs_id)`. -/
def inst (d : DsName) (o : String) : String := if d.multi then d.base ++ o else d.base

/-- The observations for which a dataset is loaded. -/
def obsOf (c : Cfg) (d : DsName) : List String := if d.multi then c.obs else [""]

/-- `unique()`. -/
def uniq : List DsName → List DsName
  | [] => []
  | a :: r => a :: (uniq r).filter fun b => decide (b ≠ a)

/-- The rows of a level (OutputSpecifications.py:55-56). -/
def rowsAt (c : Cfg) (l : Level) : List Row := c.rows.filter fun r => decide (r.level = l)

/-- The rows of a dataset (OutputSpecifications.py:52-53). -/
def rowsOf (c : Cfg) (d : DsName) : List Row := c.rows.filter fun r => decide (r.ds = d)

/-- `filter_datasets` (AbstractOutput.py:336-356). -/
def datasets (c : Cfg) (l : Level) : List DsName :=
  if c.extended then uniq ((rowsAt c l).map Row.ds)
  else (uniq ((rowsAt c l).map Row.ds)).filter fun d => !(((rowsAt c l).filter fun r => decide (r.ds = d)).all Row.ext)

/-- `filter_dataset_attributes` (AbstractOutput.py:358-381); `cand`: the model and the method of the candidates. -/
def attributes (c : Cfg) (d : DsName) (cand : Option (String × String)) : List Row :=
  let noFirst := match cand with
    | none => false
    | some (ot, m) => c.skip ot || m != "lineModelSolve"
  ((rowsOf c d).filter fun r => !(noFirst && r.first)).filter fun r => c.extended || !r.ext

/-- `get_solve_methods` (Parameters.py:82-90). -/
def methods (c : Cfg) (ot : String) : List String := ((c.zMethod ot).toList ++ (c.lmMethod ot).toList).filter fun m => m != ""

/-- The stage of a method (AbstractOutput.py:431-434, Parameters.py:92-96). -/
def stageOf (m : String) : String := if m = "lineMeasSolve" then "lineMeasSolver" else "redshiftSolver"

/-- Attributes set one after the other, when present. -/
def fill : List (String × Option V) → Dict V → Dict V
  | [], d => d
  | (k, some v) :: r, d => fill r (upd d k v)
  | (_, none) :: r, d => fill r d

/-- `get_attribute_wrapper` (AbstractOutput.py:574-594), and the tests of the other loaders. -/
def ask (s : Src V) (q : Query) : Option V := if s.has q then some (s.get q) else none

/-- The attributes of `fill_object_dataset` (AbstractOutput.py:451-463). -/
def objEntries (c : Cfg) (s : Src V) (ot m o : String) (d : DsName) : List (String × Option V) :=
  (attributes c d none).map fun r => (r.name, ask s ⟨ot, stageOf m, m, r, none, none, o⟩)

/-- The loop over the observations (AbstractOutput.py:440-449). -/
def objObs (c : Cfg) (s : Src V) (ot m : String) (d : DsName) : List String → Obj V → Obj V
  | [], b => b
  | o :: r, b => objObs c s ot m d r (upd b (inst d o) (.dict (fill (objEntries c s ot m o d) fun _ => none)))

/-- The loop over the methods (AbstractOutput.py:429-449). -/
def objMethods (c : Cfg) (s : Src V) (ot : String) (d : DsName) : List String → Obj V → Obj V
  | [], b => b
  | m :: r, b => objMethods c s ot d r (if s.hasDs ot (stageOf m) m d.base then objObs c s ot m d (obsOf c d) b else b)

/-- `load_object_level` (AbstractOutput.py:424-449). -/
def loadObject (c : Cfg) (s : Src V) (ot : String) : List DsName → Obj V → Obj V
  | [], b => b
  | d :: r, b => loadObject c s ot r (objMethods c s ot d (methods c ot) b)

/-- The attributes of a dataset of the methods (AbstractOutput.py:477-497). -/
def methEntries (c : Cfg) (s : Src V) (ot : String) (d : DsName) : List String → List (String × Option V)
  | [] => []
  | m :: r => (if s.hasDs ot (stageOf m) m d.base then
      (attributes c d none).map fun w => (if w.ph = .meth then m ++ w.name else w.name, ask s ⟨ot, stageOf m, m, w, none, none, ""⟩)
    else []) ++ methEntries c s ot d r

/-- `load_method_level` (AbstractOutput.py:465-497). -/
def loadMethod (c : Cfg) (s : Src V) (ot : String) : List DsName → Obj V → Obj V
  | [], b => b
  | d :: r, b => loadMethod c s ot r (upd b d.base (.dict (fill (methEntries c s ot d (methods c ot)) fun _ => none)))

/-- The attributes of a candidate (AbstractOutput.py:549-592). -/
def candEntries (c : Cfg) (s : Src V) (ot m o : String) (d : DsName) (rank : Nat) : List (String × Option V) :=
  (attributes c d (some (ot, m))).flatMap fun r =>
    if r.ph = .band then c.bands.map fun b => (b, ask s ⟨ot, stageOf m, m, r, some rank, some b, ""⟩)
    else [(r.name, ask s ⟨ot, stageOf m, m, r, some rank, none, o⟩)]

/-- The loop over the ranks (AbstractOutput.py:548-592); `none`: `IndexError`. -/
def buildRanks (e : Nat → List (String × Option V)) : List Nat → List (Dict V) → Option (List (Dict V))
  | [], l => some l
  | k :: r, l => match l[k]? with
    | some d => buildRanks e r (l.set k (fill (e k) d))
    | none => if (e k).any fun p => p.2.isSome then none else buildRanks e r l

/-- `build_candidate_dataset` (AbstractOutput.py:536-592) on the dataset created when missing (AbstractOutput.py:514-532); on a dataset which is not a list
the code fails at the first attribute, here as soon as there is a candidate. -/
def build (c : Cfg) (s : Src V) (ot m o : String) (d : DsName) (b : Obj V) : Option (Obj V) :=
  match b (inst d o) with
  | some (.dict _) => if s.nb ot m = 0 then some b else none
  | some (.cands l) =>
    (buildRanks (candEntries c s ot m o d) (List.range (s.nb ot m)) (if l.isEmpty then List.replicate (s.nb ot m) fun _ => none else l)).map
      fun l' => upd b (inst d o) (.cands l')
  | none =>
    (buildRanks (candEntries c s ot m o d) (List.range (s.nb ot m)) (List.replicate (s.nb ot m) fun _ => none)).map
      fun l' => upd b (inst d o) (.cands l')

/-- The loop over the observations (AbstractOutput.py:523-532). -/
def candObs (c : Cfg) (s : Src V) (ot m : String) (d : DsName) : List String → Obj V → Option (Obj V)
  | [], b => some b
  | o :: r, b => (build c s ot m o d b).bind (candObs c s ot m d r)

/-- The loop over the datasets (AbstractOutput.py:507-532). -/
def candDs (c : Cfg) (s : Src V) (ot m : String) : List DsName → Obj V → Option (Obj V)
  | [], b => some b
  | d :: r, b => (if s.hasCand ot (stageOf m) m d then candObs c s ot m d (obsOf c d) b else some b).bind (candDs c s ot m r)

/-- `load_candidate_level` (AbstractOutput.py:499-532). The stage is `redshiftSolver`, that of every method of a redshift solver. -/
def loadCand (c : Cfg) (s : Src V) (ot : String) (b : Obj V) : Option (Obj V) :=
  match c.zMethod ot with
  | none => some b
  | some m => if m = "" then some b else candDs c s ot m (datasets c .candidate) b

/-- The three levels of a model (AbstractOutput.py:122-125). -/
def loadModel (c : Cfg) (s : Src V) (ot : String) (b : Obj V) : Option (Obj V) :=
  loadCand c s ot (loadMethod c s ot (datasets c .method) (loadObject c s ot (datasets c .object) b))

/-- The results of the output: those of the root, those of each model, and the flag `cache`. -/
structure Out (V : Type) where
  root : String → Option (Dict V)
  objs : String → Obj V
  cache : Bool

/-- The attributes of a dataset of the root (AbstractOutput.py:394-422): those by model, and the others. -/
def rootEntries (c : Cfg) (s : Src V) (d : DsName) : List (String × Option V) :=
  (attributes c d none).flatMap fun r =>
    if r.ph = .obj then c.models.map fun ot => (ot ++ r.name, ask s ⟨ot, "", "", r, none, none, ""⟩)
    else [(r.name, ask s ⟨"", "", "", r, none, none, ""⟩)]

/-- `load_root` (AbstractOutput.py:383-422). -/
def loadRoot (c : Cfg) (s : Src V) : List DsName → (String → Option (Dict V)) → String → Option (Dict V)
  | [], f => f
  | d :: r, f => loadRoot c s r (if s.hasDs "" "" "" d.base then upd f d.base (fill (rootEntries c s d) fun _ => none) else f)

/-- The loop over the models of `load_all` (AbstractOutput.py:122-125). -/
def loadModels (c : Cfg) (s : Src V) : List String → (String → Obj V) → Option (String → Obj V)
  | [], f => some f
  | ot :: r, f => (loadModel c s ot (f ot)).bind fun b => loadModels c s r fun x => if x = ot then b else f x

/-- `load_all` (AbstractOutput.py:118-126); `initError`: the initialisation failed. -/
def loadAll (c : Cfg) (s : Src V) (initError : Bool) (w : Out V) : Option (Out V) :=
  let w := { w with root := loadRoot c s (datasets c .root) w.root }
  if initError then some w
  else (loadModels c s c.models w.objs).map fun f => { w with objs := f, cache := true }

/-- `get_method` (AbstractOutput.py:237-243). -/
def getMethod (c : Cfg) (ot ds : String) : Option String := if ds = "linemeas" then c.lmMethod ot else c.zMethod ot

/-- `get_attribute` of a model (AbstractOutput.py:216-229); in the results when loaded, else in the source: the row is found by its name and its dataset
(ResultStoreOutput.py:104-117), which are those of the table, placeholders included. `none`: an exception. -/
def getAttribute (c : Cfg) (s : Src V) (w : Out V) (ot ds a : String) (rank : Option Nat) : Option V :=
  if w.cache then
    match w.objs ot ds, rank with
    | some (.dict f), none => f a
    | some (.cands l), some k => (l[k]?).bind fun f => f a
    | _, _ => none
  else
    match c.rows.find? fun r => decide (r.name = a ∧ r.ph = .plain ∧ r.ds = ⟨ds, false⟩) with
    | none => none
    | some r => (getMethod c ot ds).bind fun m => ask s ⟨ot, stageOf m, m, r, rank, none, ""⟩

end OutLoad
end Amazed
