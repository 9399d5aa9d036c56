import Verif.Basic

/-!
# Writing of the results in a file

Models `H5Writer` (`pylibamazed/python/pylibamazed/H5Writer.py:48-151`), with `get_available_datasets`, `get_dataset_size`, `get_nb_candidates`,
`get_candidate_group_name` (`AbstractOutput.py:271-332, 601-602`).

A file is the list of what has been written in it, in order; a path is the list of the names from the root (names have no slash). A value is a
scalar or a numpy array. A dictionary is a list of pairs with distinct keys. The coding of the values in the file (types, lengths of strings,
compression), and the logs, are not modelled; the names of the candidates are the last character of their group.
-/

set_option autoImplicit true
namespace Amazed
namespace H5Write

/-- A value. -/
inductive Val (V : Type)
  | scalar (v : V)
  | array (l : List V)
deriving DecidableEq

/-- A dictionary of attributes. -/
abbrev Dict (V : Type) := List (String × Val V)

/-- A dataset of a model: a dictionary, or one per candidate. -/
inductive Ds (V : Type)
  | dict (d : Dict V)
  | cands (l : List (Dict V))

/-- A path in the file. -/
abbrev Path := List String

/-- What can be written. -/
inductive Entry (V : Type)
  | group (p : Path)
  | attr (p : Path) (name : String) (v : Val V)
  | table (p : Path) (cols : List (String × List V))
deriving DecidableEq

/-- The file. -/
abbrev File (V : Type) := List (Entry V)

/-- The path of a group or of a table. -/
def Entry.node : Entry V → Option Path
  | .group p => some p
  | .table p _ => some p
  | .attr _ _ _ => none

/-- The paths in use. -/
def paths (f : File V) : List Path := f.filterMap Entry.node

/-- The loaded results: root datasets, errors (model, stage), models, their datasets, whether a model has a redshift solver, excluded datasets. -/
structure Out (V : Type) where
  root : List (String × Dict V)
  err : Option String → String → Option (Dict V)
  models : List String
  objs : String → List (String × Ds V)
  solver : String → Bool
  excluded : String → String → Bool

/-- A writing: the file, and whether it went without exception. -/
abbrev Wr (V : Type) := File V → File V × Bool

/-- One after the other, until an exception. -/
def seq (a b : Wr V) : Wr V := fun f => if (a f).2 then b (a f).1 else a f

/-- Nothing. -/
def skip : Wr V := fun f => (f, true)

/-- A loop. -/
def forAll {A V : Type} (l : List A) (g : A → Wr V) : Wr V :=
  match l with
  | [] => skip
  | x :: r => seq (g x) (forAll r g)

/-- `create_group`: an existing name is a `ValueError`. -/
def wGroup (p : Path) : Wr V := fun f => if p ∈ paths f then (f, false) else (f ++ [.group p], true)

/-- `node.attrs[name] = value` for a dictionary. -/
def wAttrs (p : Path) (d : Dict V) : Wr V := fun f => (f ++ d.map fun a => .attr p a.1 a.2, true)

/-- A column of a data frame with `n` rows: scalars are repeated. -/
def column (n : Nat) : Val V → List V
  | .scalar v => List.replicate n v
  | .array l => l

/-- `_create_dataset_from_dict` (H5Writer.py:48-64): arrays of different lengths are a `ValueError`. -/
def wTable (p : Path) (d : Dict V) (n : Nat) : Wr V := fun f =>
  if d.all (fun a => (column n a.2).length == n) && !(decide (p ∈ paths f)) then
    (f ++ [.table p (d.map fun a => (a.1, column n a.2))], true)
  else (f, false)

/-- `get_dataset_size` (AbstractOutput.py:271-291): the size of the first attribute. -/
def size (d : Dict V) : Nat :=
  match d with
  | [] => 0
  | (_, .array l) :: _ => l.length
  | (_, .scalar _) :: _ => 1

/-- A group with attributes. -/
def wLeaf (p : Path) (d : Dict V) : Wr V := seq (wGroup p) (wAttrs p d)

/-- `write_hdf5_root` (H5Writer.py:73-77). -/
def wRoot (o : Out V) (id : String) : Wr V := forAll o.root fun x => wLeaf [id, x.1] x.2

/-- The datasets which are dictionaries (AbstractOutput.py:296-301). -/
def dicts (o : Out V) (ot : String) : List (String × Dict V) :=
  (o.objs ot).filterMap fun x => match x.2 with
    | .dict d => some (x.1, d)
    | .cands _ => none

/-- The datasets which are lists (AbstractOutput.py:302-307). -/
def lists (o : Out V) (ot : String) : List (String × List (Dict V)) :=
  (o.objs ot).filterMap fun x => match x.2 with
    | .dict _ => none
    | .cands l => some (x.1, l)

/-- One dataset of a model (H5Writer.py:80-95). -/
def wObjDs (o : Out V) (id ot : String) (x : String × Dict V) : Wr V :=
  if o.excluded ot x.1 then skip
  else if 1 < size x.2 then wTable [id, ot, x.1] x.2 (size x.2) else wLeaf [id, ot, x.1] x.2

/-- `write_hdf5_object_level` (H5Writer.py:79-95). -/
def wObject (o : Out V) (id ot : String) : Wr V := forAll (dicts o ot) (wObjDs o id ot)

/-- `get_nb_candidates` (AbstractOutput.py:326-332): the size of the first list. -/
def nbCand (o : Out V) (ot : String) : Nat :=
  match lists o ot with
  | [] => 0
  | x :: _ => x.2.length

/-- `get_candidate_group_name` (AbstractOutput.py:601-602). -/
def candName (k : Nat) : String := "candidate" ++ String.singleton (Char.ofNat (k + 65))

/-- One dataset of a candidate (H5Writer.py:104-123); a shorter list is an `IndexError`. -/
def wCandDs (o : Out V) (id ot : String) (k : Nat) (x : String × List (Dict V)) : Wr V :=
  if o.excluded ot x.1 then skip
  else match x.2[k]? with
    | none => fun f => (f, false)
    | some d =>
      if size d = 0 then skip
      else if size d = 1 then wLeaf [id, ot, "candidates", candName k, x.1] d
      else wTable [id, ot, "candidates", candName k, x.1] d (size d)

/-- One candidate (H5Writer.py:102-123). -/
def wCandidate (o : Out V) (id ot : String) (k : Nat) : Wr V :=
  seq (wGroup [id, ot, "candidates", candName k]) (forAll (lists o ot) (wCandDs o id ot k))

/-- `write_hdf5_candidate_level` (H5Writer.py:97-123). -/
def wCands (o : Out V) (id ot : String) : Wr V :=
  if o.solver ot then seq (wGroup [id, ot, "candidates"]) (forAll (List.range (nbCand o ot)) (wCandidate o id ot)) else skip

/-- `write_error` (H5Writer.py:148-151), when there is one. -/
def wErr (o : Out V) (p : Path) (m : Option String) (stage : String) : Wr V :=
  match o.err m stage with
  | none => skip
  | some e => wLeaf (p ++ [stage ++ "_error"]) e

/-- `root_stages` (AbstractOutput.py:47). -/
def rootStages : List String := ["init", "classification", "load_result_store"]

/-- The keys of `spectrum_model_stages` (AbstractOutput.py:50-55). -/
def modelStages : List String := ["redshiftSolver", "linemeas_catalog_load", "lineMeasSolver", "reliabilitySolver", "subClassifSolver"]

/-- A model (H5Writer.py:135-143). -/
def wModel (o : Out V) (id ot : String) : Wr V :=
  seq (wGroup [id, ot]) (seq (wObject o id ot) (seq (if 0 < nbCand o ot then wCands o id ot else skip)
    (forAll modelStages (wErr o [id, ot] (some ot)))))

/-- `write_hdf5` (H5Writer.py:125-146): the exceptions are raised again as `EXTERNAL_LIB_ERROR`, what has been written stays. -/
def write (o : Out V) (id : String) : Wr V :=
  seq (wGroup [id]) (seq (wRoot o id) (seq (forAll rootStages (wErr o [id] none))
    (if (o.err none "init").isSome then skip else forAll o.models (wModel o id))))

end H5Write
end Amazed
