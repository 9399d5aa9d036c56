import Verif.Basic
import Mathlib.Algebra.Order.Field.Basic

/-!
# The spectra made of the observations

Models the end of `AbstractSpectrumReader.init` (`pylibamazed/python/pylibamazed/AbstractSpectrumReader.py`): the test of the ranges
(`_check_wavelengths`, lines 267-278), `_add_cspectra` (lines 337-384), the attachment of the line spread function (lines 254-255), with
`get_lambda_range` and `get_observation_ids` (`ParametersAccessor.py:49-58, 456-460`).

The fluxes and errors are of any type `F`; the wavelengths are in an ordered field (rounding and NaN not modelled). An exception of Python
or pandas is `PYTHON_API_ERROR`, into which it is turned (`Exception.py:73-92`). `sort_values` is an unstable sort: the sorted rows are an
argument, which the theorems let be any sorted permutation. The conversion from air to vacuum and the construction of the axes are
`SpecFilter.airVacuum` and `SAxis`.
-/

set_option autoImplicit true
namespace Amazed
namespace Merge

variable {K : Type} [Field K] [LinearOrder K]

/-- A row of the dataframe `wse` (lines 353-356). -/
structure Px (K F : Type) where
  wave : K
  flux : F
  err : F
deriving DecidableEq, Repr

/-- The uniques of `pd.factorize`, also `unique()`: the values in the order of their first appearance (lines 360, 364). -/
def uniques : List K → List K
  | [] => []
  | x :: r => x :: (uniques r).filter fun y => decide (y ≠ x)

/-- The codes of `pd.factorize` (line 360). -/
def codes (w : List K) : List Nat := w.map fun x => (uniques w).idxOf x

/-- `np.bincount` (line 361): number of occurrences of 0, …, up to the greatest code. -/
def bincount (c : List Nat) : List Nat := (List.range ((c.map (· + 1)).foldr max 0)).map fun k => c.count k

/-- The concatenated `np.arange` (line 361). -/
def aranges (c : List Nat) : List Nat := c.flatMap List.range

/-- The rows with the shifted wavelengths (lines 360-362): the shifts, computed by position, are added to the sorted rows. -/
def shifted (eps : K) (s : List (Px K F)) : List (Px K F) :=
  List.zipWith (fun (p : Px K F) (k : Nat) => { p with wave := p.wave + (k : K) * eps }) s (aranges (bincount (codes (s.map (·.wave)))))

/-- `(np.diff(w) > 0).all()` (line 370). -/
def increasing : List K → Bool
  | a :: b :: r => decide (b - a > 0) && increasing (b :: r)
  | _ => true

/-- The merged rows (lines 359-374), `s` being the rows after `sort_values`; `np.concatenate` refuses an empty list, and the addition of
arrays of different lengths is refused. -/
def merge (eps : K) (s : List (Px K F)) : Res (List (Px K F)) :=
  if bincount (codes (s.map (·.wave))) = [] then .throw .PYTHON_API_ERROR
  else if (aranges (bincount (codes (s.map (·.wave))))).length ≠ s.length then .throw .PYTHON_API_ERROR
  else if (uniques ((shifted eps s).map (·.wave))).length ≠ s.length then .throw .UNALLOWED_DUPLICATES
  else if !increasing ((shifted eps s).map (·.wave)) then .throw .UNSORTED_ARRAY
  else .ok (shifted eps s)

/-- `pd.concat` of the observations (lines 351-358). -/
def concat (obs : List (String × List (Px K F))) : List (Px K F) := obs.flatMap (·.2)

/-- `_add_cspectra` (lines 337-384): the spectra given to the library, with their names. `sort` is `sort_values`. -/
def spectra (sort : List (Px K F) → List (Px K F)) (eps : K) (method : String) (obs : List (String × List (Px K F))) :
    Res (List (String × List (Px K F))) :=
  if method = "" then
    match obs with
    | [(n, p)] => if n = "" then .ok [("", p)] else .throw .INVALID_NAME
    | _ => .throw .INVALID_NAME
  else if method = "merge" then merge eps (sort (concat obs)) >>= fun m => .ok [("", m)]
  else if method = "full" then .ok obs
  else .ok []

/-- `parameters["lambdaRange"]`: a range, or a range for each observation. -/
inductive Ranges (K : Type)
  | single (lo hi : K)
  | byObs (l : List (String × K × K))

/-- The value of a dictionary. -/
def find (k : String) : List (String × A) → Option A
  | [] => none
  | (n, a) :: r => if n = k then some a else find k r

/-- `get_lambda_range` (ParametersAccessor.py:49-58), unpacked by its caller (a dictionary is refused there, or when its keys are compared
with wavelengths; a list is not indexed by a name; an unknown name is a `KeyError`). -/
def rangeOf (method : String) (r : Ranges K) (name : String) : Res (K × K) :=
  if method = "" ∨ method = "merge" then
    match r with
    | .single a b => .ok (a, b)
    | .byObs _ => .throw .PYTHON_API_ERROR
  else match r with
    | .single _ _ => .throw .PYTHON_API_ERROR
    | .byObs l => match find name l with
      | some x => .ok x
      | none => .throw .PYTHON_API_ERROR

/-- `_check_wavelengths` (lines 267-289): the observations whose range does not contain the range of the parameters (they get a
warning). The wavelengths are here those loaded, before the filters. -/
def checkRanges (method : String) (r : Ranges K) : List (String × List K) → Res (List String)
  | [] => .ok []
  | (n, w) :: l => rangeOf method r n >>= fun x =>
    match w with
    | [] => .throw .INVALID_SPECTRUM
    | a :: t => checkRanges method r l >>= fun rest =>
      .ok (if a ≤ x.1 ∧ x.2 ≤ (a :: t).getLast (by simp) then rest else n :: rest)

/-- `get_observation_ids` of the parameters (ParametersAccessor.py:456-460). -/
def paramIds : Ranges K → List String
  | .single _ _ => [""]
  | .byObs l => l.map (·.1)

/-- The observations given the line spread function and the photometric data (lines 254-256, 291-295): the names of the parameters, each of
them being looked for in the spectra. -/
def attach (ids : List String) (sp : List (String × List (Px K F))) : Res Unit :=
  if ids.all fun i => (find i sp).isSome then .ok () else .throw .PYTHON_API_ERROR

/-- The end of `init` (lines 246-256): `loaded` are the wavelengths loaded, `obs` the filtered observations. The creation of the line
spread function (lines 248-253) is not in this function. -/
def init (sort : List (Px K F) → List (Px K F)) (eps : K) (method : String) (r : Ranges K) (loaded : List (String × List K))
    (obs : List (String × List (Px K F))) : Res (List String × List (String × List (Px K F))) :=
  checkRanges method r loaded >>= fun warned => spectra sort eps method obs >>= fun sp => attach (paramIds r) sp >>= fun _ => .ok (warned, sp)

end Merge
end Amazed
