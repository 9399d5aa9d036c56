import Verif.Model.LogZPdf

/-!
# Redshift PDF read back from the results, and reliability

Models the constructor and the grids of `CLogZPdfResult` (`operator/logZPdfResult.cpp:50-97`, `common/zgridparam.cpp:57-71`),
`buildPdfParams`, `BuilderPdfHandler`, `PdfHandler` (`pylibamazed/python/pylibamazed/PdfHandler.py:45-121`), `get_pdf_attribute`
(`AbstractOutput.py:194-220`), and the checks of `get_probas` (`Reliability.py:64-106`) before the neural network.

The sampling of a grid (`CZGridParam::getZGrid`) is the parameter `one`; the sampling flag is the same at the creation and at the reading (it is
a parameter of the session). `stale` is the outcome of the read of `zstep[1]` after the resize, as in `LogPdf.convertToRegular`. A refused
operation leaves no result.
-/

set_option autoImplicit true
set_option linter.unusedVariables false
namespace Amazed
namespace PdfSave

variable {K : Type} [Field K] [LinearOrder K]

/-- `CZGridListParams::getZGrid` (zgridparam.cpp:57-71): the windows are sampled and inserted one after the other. -/
def listLoop (one : ZParam K → Res (List K)) (eps : K) : List (ZParam K) → List K → Res (List K)
  | [], z => .ok z
  | q :: r, z => one q >>= fun s => insertSubgrid eps s z >>= fun t => listLoop one eps r t.1

/-- `CZGridListParams::getZGrid` (zgridparam.cpp:57-71). -/
def listGrid (one : ZParam K → Res (List K)) (eps : K) : List (ZParam K) → Res (List K)
  | [] => .ok []
  | q :: r => one q >>= fun z => listLoop one eps r z

/-- `CLogZPdfResult::CLogZPdfResult` (logZPdfResult.cpp:50-58); `low` is `-DBL_MAX`. -/
def make (one : ZParam K → Res (List K)) (eps low : K) (ps : List (ZParam K)) (vals : List (Option K)) : Res (LogPdf K) :=
  listGrid one eps ps >>= fun zs =>
    (if vals.isEmpty then (⟨zs, List.replicate zs.length (some low), ps⟩ : LogPdf K) else ⟨zs, vals, ps⟩).checkSizes

/-- What is done with a PDF. -/
inductive Op (K : Type)
  | regular (fine : Bool)
  | extend (zend : K)

/-- One operation (logZPdfResult.cpp:138-173). -/
def apply (one : ZParam K → Res (List K)) (stale : K → Res K) (p : LogPdf K) : Op K → Res (LogPdf K)
  | .regular fine => p.convertToRegular one stale fine
  | .extend z => p.extrapolateRight one z

/-- Operations one after the other. -/
def applyAll (one : ZParam K → Res (List K)) (stale : K → Res K) : List (Op K) → LogPdf K → Res (LogPdf K)
  | [], p => .ok p
  | o :: r, p => apply one stale p o >>= applyAll one stale r

/-- The saved attributes: columns of `pdf_params`, and `LogZPdfNative` (results_specifications.csv:91, 129-141). -/
structure Saved (K : Type) where
  zmin : List K
  zmax : List K
  zstep : List K
  zcenter : List (Option K)
  proba : List (Option K)

/-- The saving of a PDF: every attribute is the vector of the same name. -/
def save (p : LogPdf K) : Saved K :=
  ⟨p.params.map ZParam.zmin, p.params.map ZParam.zmax, p.params.map ZParam.zstep, p.params.map ZParam.zcenter, p.vals⟩

/-- `zip(*pdf_params.values())` (PdfHandler.py:46): as long as the shortest column. -/
def rows : List K → List K → List K → List (Option K) → List (ZParam K)
  | a :: as, b :: bs, d :: ds, e :: es => ⟨a, b, d, e⟩ :: rows as bs ds es
  | _, _, _, _ => []

/-- `buildPdfParams` (PdfHandler.py:45-53): those of the first pass have no centre. -/
def buildParams (s : Saved K) (first : Bool) : List (ZParam K) :=
  if first then rows s.zmin s.zmax s.zstep (s.zmin.map fun _ => none) else rows s.zmin s.zmax s.zstep s.zcenter

/-- `BuilderPdfHandler.build` (PdfHandler.py:72-90). -/
def load (one : ZParam K → Res (List K)) (eps low : K) (s : Saved K) (first : Bool) : Res (LogPdf K) :=
  make one eps low (buildParams s first) s.proba

/-- `PdfHandler.convertToRegular` (PdfHandler.py:105-109). `zmax[0]` of a PDF without parameters is out of bounds. -/
def regularTo (one : ZParam K → Res (List K)) (stale : K → Res K) (zend : Option K) (p : LogPdf K) : Res (LogPdf K) :=
  p.convertToRegular one stale true >>= fun p => match zend with
    | none => .ok p
    | some z => match p.params with
      | [] => .ub
      | q :: _ => if q.zmax < z then p.extrapolateRight one z else .ok p

/-- Name of an attribute of the PDF: it contains `Firstpass`, `Native`, `ZGrid`. -/
structure Name where
  first : Bool
  native : Bool
  grid : Bool
deriving DecidableEq, Repr

/-- `get_pdf_attribute` (AbstractOutput.py:194-220), given what is saved for the two passes: the builder is always that of the final PDF
(PdfHandler.py:57-70, `first_pass=False`). -/
def pdfAttribute (one : ZParam K → Res (List K)) (eps low : K) (stale : K → Res K) (final first : Saved K) (n : Name) : Res (List (Option K)) :=
  load one eps low final false >>= fun p =>
  (if n.native then .ok p else p.convertToRegular one stale true) >>= fun p =>
  .ok (if n.grid then p.zs.map some else p.vals)

/-- `(a - c) / a > eps` with the division of numpy: infinite or NaN when `a` is zero (Reliability.py:86-87). -/
def tooFar (eps a c : K) : Bool := if a = 0 then decide (c < 0) else decide ((a - c) / a > eps)

/-- The last element, and the one before (`zgrid[-1]`, `zgrid[-2]`; `none`: `IndexError`). -/
def lastTwo : List K → Option (K × K)
  | [] => none
  | [_] => none
  | [a, b] => some (b, a)
  | _ :: b :: c :: r => lastTwo (b :: c :: r)

/-- `get_probas` (Reliability.py:64-106): `n` is the size of the input of the network, `zend` and `ratio` (`exp(zrange_step)`) the parameters of
its grid, `tol` is `1e-6`; a redshift -1 is excluded (`ub`); the result is the logarithm of the input given to the network. -/
def relInput (one : ZParam K → Res (List K)) (eps low tol : K) (stale : K → Res K) (n : Nat) (zend ratio : K) (s : Saved K) :
    Res (List (Option K)) :=
  load one eps low s false >>= fun p => regularTo one stale (some zend) p >>= fun p =>
    match p.zs.getLast? with
    | none => .throw .PYTHON_API_ERROR
    | some a =>
      if p.vals.length ≠ n then .throw .INCOMPATIBLE_PDF_MODELSHAPES
      else if tooFar tol a zend then .throw .INCOMPATIBLE_PDF_MODELSHAPES
      else match lastTwo p.zs with
        | none => .throw .PYTHON_API_ERROR
        | some (a, b) =>
          if b + 1 = 0 ∨ a + 1 = 0 then .ub
          else if (ratio - (a + 1) / (b + 1)) / ((a + 1) / (b + 1)) > tol then .throw .INCOMPATIBLE_PDF_MODELSHAPES
          else .ok p.vals

end PdfSave
end Amazed
