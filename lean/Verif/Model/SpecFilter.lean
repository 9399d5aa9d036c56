import Verif.Basic
import Mathlib.Data.Int.Bitwise
import Mathlib.Data.Rat.Defs
import Mathlib.Algebra.Order.Ring.Rat

/-!
# Filters on the pixels of a spectrum

Models `FilterItem` and `FilterList` (`pylibamazed/python/pylibamazed/Filter.py:47-179`), `LogicUtils.cumulate_conditions`
(`Utils.py:4-9`), `ParamJsonFilterLoader.get_filters` (`FilterLoader.py:83-91`), the checks of the filters
(`ParametersChecker.py:125-157`) and the parts of `AbstractSpectrumReader` that prepare the pixels
(`AbstractSpectrumReader.py:230-276, 297-314, 394-410, 451-464`).

A column is a column of integers or of reals (`float64`, NaN being `none`; the infinities are left out, and a `float64` is a rational).
The value of a filter is an integer, a real or a list of numbers. An exception of pandas (a value of the wrong kind) is
`PYTHON_API_ERROR`, into which it is turned (`Exception.py:73-92`). The comparison of a column with a list (elementwise in pandas when
the lengths agree) is not modelled: `ub`.
-/

set_option autoImplicit true
namespace Amazed
namespace SpecFilter

/-- A column. -/
inductive Col
  | ints (l : List Int)
  | reals (l : List (Option ℚ))
deriving DecidableEq, Repr

/-- The value of a filter. -/
inductive Val
  | int (n : Int)
  | real (x : ℚ)
  | list (l : List ℚ)
deriving DecidableEq, Repr

/-- `FilterItem` (Filter.py:47-62). -/
structure Item where
  key : String
  ins : String
  val : Val
deriving DecidableEq, Repr

/-- The dataframe of an observation: its columns, in order. -/
abbrev Frame := List (String × Col)

/-- `allowed_instructions` (Filter.py:56). -/
def allowed : List String := ["<", ">", "<=", ">=", "=", "in", "~in", "!=", "&", "~&", "0&", "^"]

/-- The numbers of a column, as the comparisons see them. -/
def numbers : Col → List (Option ℚ)
  | .ints l => l.map fun (n : Int) => some (n : ℚ)
  | .reals l => l

/-- The number of a value. -/
def Val.number : Val → Option ℚ
  | .int n => some (n : ℚ)
  | .real x => some x
  | .list _ => none

/-- Comparison of a column with a number; `nan` is the answer for NaN. -/
def compare (p : ℚ → ℚ → Bool) (nan : Bool) (c : Col) (v : Val) : Res (List Bool) :=
  match v.number with
  | some y => .ok ((numbers c).map fun x => match x with | some x => p x y | none => nan)
  | none => .ub

/-- `isin` (Filter.py:122-126); `neg` is the `~` applied to the result. -/
def isin (neg : Bool) (c : Col) (v : Val) : Res (List Bool) :=
  match v with
  | .list l => .ok ((numbers c).map fun x => match x with | some x => xor neg (decide (x ∈ l)) | none => neg)
  | _ => .throw .PYTHON_API_ERROR

/-- A bitwise operation on a column of integers; a column of reals, or a value that is not an integer, is refused by numpy. -/
def bits (p : Int → Int → Bool) (c : Col) (v : Val) : Res (List Bool) :=
  match c, v with
  | .ints l, .int y => .ok (l.map fun x => p x y)
  | _, _ => .throw .PYTHON_API_ERROR

/-- `_comparator_from_instruction` (Filter.py:86-102) and the comparators (Filter.py:104-141); `none`: `KeyError`. -/
def comparator (ins : String) : Option (Col → Val → Res (List Bool)) :=
  if ins = "<" then some (compare (fun a b => decide (a < b)) false)
  else if ins = ">" then some (compare (fun a b => decide (a > b)) false)
  else if ins = ">=" then some (compare (fun a b => decide (a ≥ b)) false)
  else if ins = "<=" then some (compare (fun a b => decide (a ≤ b)) false)
  else if ins = "=" then some (compare (fun a b => decide (a = b)) false)
  else if ins = "!=" then some (compare (fun a b => decide (a ≠ b)) true)
  else if ins = "in" then some (isin false)
  else if ins = "~in" then some (isin true)
  else if ins = "&" then some (bits fun a b => decide (Int.land a b ≠ 0))
  else if ins = "~&" then some (bits fun a b => !decide (Int.land a b ≠ 0))
  else if ins = "0&" then some (bits fun a b => decide (a = 0) || decide (Int.land a b ≠ 0))
  else if ins = "^" then some (bits fun a b => decide (Int.xor a b ≠ 0))
  else if ins = "~^" then some (bits fun a b => !decide (Int.xor a b ≠ 0))
  else none

/-- `df[key]`. -/
def column (k : String) : Frame → Option Col
  | [] => none
  | (n, c) :: r => if n = k then some c else column k r

/-- `compliant_lines` (Filter.py:77-84). -/
def compliant (f : Item) (df : Frame) : Res (List Bool) :=
  match column f.key df with
  | none => .throw .INVALID_FILTER_KEY
  | some c => match comparator f.ins with
    | none => .throw .PYTHON_API_ERROR
    | some p => p c f.val

/-- The list of the conditions, in order (Filter.py:178). -/
def conditions (df : Frame) : List Item → Res (List (List Bool))
  | [] => .ok []
  | f :: r => compliant f df >>= fun c => conditions df r >>= fun l => .ok (c :: l)

/-- `a & b` of two conditions. -/
def both (a b : List Bool) : List Bool := List.zipWith (· && ·) a b

/-- `cumulate_conditions` (Utils.py:5-9) on a non-empty list. -/
def cumulate (c : List Bool) (l : List (List Bool)) : List Bool := l.foldl both c

/-- The elements selected by a mask. -/
def pick : List Bool → List A → List A
  | b :: bs, x :: xs => if b then x :: pick bs xs else pick bs xs
  | _, _ => []

/-- The rows of a column selected by a mask. -/
def Col.pick (m : List Bool) : Col → Col
  | .ints l => .ints (SpecFilter.pick m l)
  | .reals l => .reals (SpecFilter.pick m l)

/-- `apply` (Filter.py:175-179). -/
def apply (fs : List Item) (df : Frame) : Res Frame :=
  conditions df fs >>= fun l =>
  match l with
  | [] => .ok df
  | c :: r => .ok (df.map fun p => (p.1, p.2.pick (cumulate c r)))

/-- `get_filters` (FilterLoader.py:83-91) with the constructor of `FilterItem` (Filter.py:58-62, 143-150). -/
def load : List Item → Res (List Item)
  | [] => .ok []
  | f :: r => if f.ins ∈ allowed then load r >>= fun l => .ok (f :: l) else .throw .INVALID_FILTER_INSTRUCTION

/-- `_apply_filters` (AbstractSpectrumReader.py:261-265) on one observation, the filters read in the parameters (`none`: absent). -/
def filterFrame (fs : Option (List Item)) (df : Frame) : Res Frame :=
  match fs with
  | none => .ok df
  | some fs => load fs >>= fun l => apply l df

/-- `_check_filters` (ParametersChecker.py:125-140), `cols` being the additional columns of the parameters; the format of the filters
(ParametersChecker.py:142-157) is that of `Item`. -/
def checkKeys (cols : List String) (fs : List Item) : Bool := fs.all fun f => decide (f.key ∈ ["Wave", "Flux", "Err"] ++ cols)

/-- A container of arrays, by observation (`Container.py`). -/
abbrev Cont (A : Type) := List (String × A)

/-- `get` of a container. -/
def Cont.get (k : String) : Cont A → Option A
  | [] => none
  | (n, c) :: r => if n = k then some c else Cont.get k r

/-- `df[name] = column`: replaces the column or adds it at the end. -/
def setCol (n : String) (c : Col) : Frame → Frame
  | [] => [(n, c)]
  | (m, d) :: r => if m = n then (n, c) :: r else (m, d) :: setCol n c r

/-- Number of rows. -/
def Col.length : Col → Nat
  | .ints l => l.length
  | .reals l => l.length

/-- What a reader has loaded. -/
structure Loaded where
  waves : Cont Col
  fluxes : Cont Col
  errors : Cont Col
  others : List (String × Cont Col)

/-- `_all_containers` (AbstractSpectrumReader.py:297-299). -/
def containers (d : Loaded) : List (Cont Col) := d.others.map (·.2) ++ [d.waves, d.fluxes, d.errors]

/-- `_sizes_are_consistent` and `_obs_ids_are_consistent` (AbstractSpectrumReader.py:301-314). -/
def consistent (d : Loaded) : Bool :=
  ((containers d).all fun c => c.length == d.waves.length) &&
  d.waves.all fun w => (containers d).all fun c => decide (w.1 ∈ c.map (·.1))

/-- The other columns added to a dataframe (AbstractSpectrumReader.py:459-462); pandas raises `ValueError` when the lengths differ. -/
def addOthers (id : String) (n : Nat) : List (String × Cont Col) → Frame → Res Frame
  | [], df => .ok df
  | (name, c) :: r, df => match Cont.get id c with
    | none => addOthers id n r df
    | some col => if col.length = n then addOthers id n r (setCol name col df) else .throw .PYTHON_API_ERROR

/-- The dataframe of an observation (AbstractSpectrumReader.py:453-462). -/
def frameOf (d : Loaded) (id : String) : Res Frame :=
  match Cont.get id d.waves, Cont.get id d.fluxes, Cont.get id d.errors with
  | some w, some f, some e =>
    if f.length = w.length ∧ e.length = w.length then
      addOthers id w.length d.others [("waves", w), ("fluxes", f), ("errors", e)]
    else .throw .PYTHON_API_ERROR
  | _, _, _ => .throw .PYTHON_API_ERROR

/-- The dataframes of the observations `ids`, filtered (AbstractSpectrumReader.py:451-464, 261-265). -/
def frames (d : Loaded) (fs : Option (List Item)) : List String → Res (List (String × Frame))
  | [] => .ok []
  | id :: r => frameOf d id >>= fun df => filterFrame fs df >>= fun df => frames d fs r >>= fun l => .ok ((id, df) :: l)

/-- The start of `init` (AbstractSpectrumReader.py:230-245). The building of all the dataframes precedes the filters; with the outcomes
modelled here it only matters for which error comes first. -/
def prepare (d : Loaded) (fs : Option (List Item)) : Res (List (String × Frame)) :=
  if consistent d then frames d fs (d.waves.map (·.1)) else .throw .INVALID_SPECTRUM

/-- The test of emptiness of `_check_wavelengths` (AbstractSpectrumReader.py:267-276): it looks at the wavelengths loaded. -/
def checkEmpty (d : Loaded) : Res Unit :=
  if d.waves.any (fun w => w.2.length == 0) then .throw .INVALID_SPECTRUM else .ok ()

/-- `_corrected_airvacuum_method` (AbstractSpectrumReader.py:394-410): the method given to the spectral axis; `air`: the frame of the
wavelengths is `air` (`set_air`), else `vacuum`. -/
def airVacuum (method : String) (air : Bool) : String :=
  let m := if method = "default" then "morton2000" else method
  if m = "" ∧ air = true then "morton2000" else if m ≠ "" ∧ air = false then "" else m

end SpecFilter
end Amazed
