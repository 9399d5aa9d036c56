import Verif.Basic
import Mathlib.Algebra.Order.Field.Basic

/-!
# Loading of the calibration

Models `load_line_ratio_catalog_list`, `load_photometric_bands` and `get_lines_ids` of `CalibrationLibrary`
(`pylibamazed/python/pylibamazed/CalibrationLibrary.py:281-345, 369-392, 497-539`).

The files are read: a ratio catalog is its rows (identity `strId` of the line and nominal amplitude), a band is its name and its curve, in the
order of the directory. An exception that is not of the API is `PYTHON_API_ERROR`. The profile and the velocities of a ratio catalog are not
modelled here (they are in `Model/LineCat.lean`).
-/

set_option linter.unusedVariables false
namespace Amazed
namespace Calib

section ratios
variable {K : Type} [Field K]

/-- `setLineAmplitude(int(index), row.NominalAmplitude)` for each row (CalibrationLibrary.py:327-331), from the amplitudes `l`; the index is that
of the line of the same identity in the main catalog (CalibrationLibrary.py:318-321). -/
def setAmps (main : List String) : List (String × K) → List K → List K
  | [], l => l
  | w :: r, l => setAmps main r (l.set (main.idxOf w.1) w.2)

/-- The amplitudes of one ratio catalog, line by line of the main catalog (CalibrationLibrary.py:313-331); those of the new catalog are zero
(lineRatioCatalog.cpp:44-50). -/
def ratioAmps (main : List String) (rows : List (String × K)) : Res (List K) :=
  if ¬ (rows.map Prod.fst).Nodup then .throw .DUPLICATED_LINES
  else if rows.any (fun w => !main.contains w.1) then .throw .LINE_RATIO_UNKNOWN_LINE
  else .ok (setAmps main rows (List.replicate main.length 0))

/-- A ratio catalog in the list: name, amplitudes, index of the dust, prior. -/
structure Ratio (K : Type) where
  name : String
  amps : List K
  ism : Nat
  prior : K
deriving DecidableEq

/-- The loop on the files (CalibrationLibrary.py:302-345). -/
def ratioLoop (main : List String) (n : Nat) (prior : K) : List (String × List (String × K)) → Res (List (Ratio K))
  | [] => .ok []
  | f :: r => ratioAmps main f.2 >>= fun a => ratioLoop main n prior r >>= fun l =>
      .ok ((List.range n).map (fun k => ⟨f.1, a, k, prior⟩) ++ l)

/-- `load_line_ratio_catalog_list` (CalibrationLibrary.py:281-345); `n` is the number of dust coefficients (1 without the fit of the dust); a
division by zero is an exception. -/
def loadRatios (main : List String) (n : Nat) (files : List (String × List (String × K))) : Res (List (Ratio K)) :=
  if files = [] then .throw .INVALID_FILEPATH
  else if n = 0 then .throw .PYTHON_API_ERROR
  else ratioLoop main n (1 / ((n : K) * (files.length : K))) files

end ratios

section bands
variable {B : Type}

/-- The loop on the files of the bands (CalibrationLibrary.py:378-387). -/
def bandLoop (req : List String) : List (String × B) → List (String × B) → Res (List (String × B))
  | [], acc => .ok acc
  | f :: r, acc =>
    if req.contains f.1 then
      if (acc.map Prod.fst).contains f.1 then .throw .BAD_FILEFORMAT else bandLoop req r (acc ++ [f])
    else bandLoop req r acc

/-- `load_photometric_bands` (CalibrationLibrary.py:369-392), the catalog being empty before. -/
def loadBands (req : List String) (files : List (String × B)) : Res (List (String × B)) :=
  if files.isEmpty then .throw .INVALID_FILEPATH
  else bandLoop req files [] >>= fun l => if req.length ≠ l.length then .throw .BAD_PARAMETER_VALUE else .ok l

end bands

/-- An attribute of a line (`model.line.…`, of the data set of the lines measured or fitted): spectrum model, method, name of the line; the other
attributes are skipped (CalibrationLibrary.py:501-528). -/
structure Attr where
  obj : String
  method : String
  line : String
deriving DecidableEq

/-- The first row of the name in a catalog of names and identifiers (CalibrationLibrary.py:535). -/
def rowOf (name : String) : List (String × Nat) → Option Nat
  | [] => none
  | w :: r => if w.1 = name then some w.2 else rowOf name r

/-- The identifiers so far, with one more (CalibrationLibrary.py:536). -/
def put (m : String → Option Nat) (name : String) (i : Nat) : String → Option Nat := fun s => if s = name then some i else m s

/-- The catalog the attribute is looked for in: that of its model and method if there is one, or the last one used
(CalibrationLibrary.py:529-531). -/
def catOf (cats : String → String → Option (List (String × Nat))) (a : Attr) (lines : Option (List (String × Nat))) :
    Option (List (String × Nat)) :=
  match cats a.obj a.method with
  | some l => some l
  | none => lines

/-- The loop of `get_lines_ids` (CalibrationLibrary.py:497-539): `lines` is the last catalog used; `none` is an exception. -/
def idsLoop (cats : String → String → Option (List (String × Nat))) :
    List Attr → Option (List (String × Nat)) → (String → Option Nat) → Option (String → Option Nat)
  | [], _, m => some m
  | a :: r, lines, m =>
    match catOf cats a lines with
    | none => idsLoop cats r none m
    | some l => (rowOf a.line l).bind fun i => idsLoop cats r (some l) (put m a.line i)

/-- `get_lines_ids`. -/
def lineIds (cats : String → String → Option (List (String × Nat))) (attrs : List Attr) : Option (String → Option Nat) :=
  idsLoop cats attrs none fun _ => none

end Calib
end Amazed
