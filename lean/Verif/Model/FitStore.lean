import Mathlib.Algebra.Order.Group.Abs
import Mathlib.Algebra.Order.Field.Basic
import Verif.Model.Loop

/-! # Store of precomputed continuum fits (`src/lib/linemodel/templatesfitstore.cpp`,
`linemodel/templatesfitstore.h`)

Merits, sigmas and redshifts are elements of a linearly ordered field: NaN is not represented (a NaN merit would break
the order that `std::upper_bound` needs). The members of `CTplModelSolution` that the store only copies are one payload
`α`. Log messages are not modelled, except the reads that their arguments make (a failing read is undefined behaviour
whatever the log level). -/

namespace Amazed
namespace FitStore

variable {K : Type} [Field K] [LinearOrder K] {α : Type}

/-- `CTplModelSolution` (tplmodelsolution.i), the members used by the store: merit, amplitude sigma and redshift; the
others are `val`. -/
structure Sol (K α : Type) where
  merit : K
  sigma : K
  z : K
  val : α
deriving DecidableEq, Repr

/-- `CTemplatesFitStore` (templatesfitstore.h:59-95): grid, `m_fitValues`, `n_continuum_candidates`. -/
structure Store (K α : Type) where
  grid : List K
  rows : List (List (Sol K α))
  count : Nat
deriving DecidableEq, Repr

/-- The constructor and `initFitValues` (templatesfitstore.cpp:47-61, templatesfitstore.h:93). -/
def new (grid : List K) : Store K α := ⟨grid, List.replicate grid.length [], 0⟩

/-- `GetRedshiftIndex` (templatesfitstore.cpp:67-73): -1 if the redshift is not in the grid. -/
def redshiftIndex (s : Store K α) (z : K) : Int :=
  let i := s.grid.findIdx (fun x => decide (x = z))
  if i < s.grid.length then (i : Int) else -1

/-- The comparison given to `std::upper_bound` (templatesfitstore.cpp:138-142). -/
def before (m a : K) (x : Sol K α) : Bool :=
  if m ≠ x.merit then decide (m < x.merit) else decide (|x.sigma| < a)

/-- Position of the insertion (templatesfitstore.cpp:133-142): `std::upper_bound`, the first element the comparison
accepts. Its precondition (the row is partitioned by the comparison) is proved for every history
(`C87_upper_bound_precondition`). -/
def insertPos (row : List (Sol K α)) (x : Sol K α) : Nat := row.findIdx (before x.merit |x.sigma|)

/-- `Add` (templatesfitstore.cpp:105-165). -/
def add (s : Store K α) (x : Sol K α) : Res (Store K α) :=
  let i := redshiftIndex s x.z
  if i < 0 then .throw .INTERNAL_ERROR
  else
    Res.atZ s.rows i >>= fun row =>
    let row' := row.take (insertPos row x) ++ x :: row.drop (insertPos row x)
    .ok ⟨s.grid, s.rows.set i.toNat row', if s.count < row'.length then row'.length else s.count⟩

/-- `GetFitValues(idxz, rank)` (templatesfitstore.cpp:171-194). The comparison of line 188 is made on unsigned
numbers: with an empty grid no index is refused. -/
def fitValuesAt (s : Store K α) (i rank : Int) : Res (Sol K α) :=
  if (s.count : Int) - 1 < rank then .throw .INTERNAL_ERROR
  else if rank < 0 then .throw .INTERNAL_ERROR
  else if i < 0 ∨ (s.grid ≠ [] ∧ (s.grid.length : Int) - 1 < i) then .throw .INTERNAL_ERROR
  else Res.atZ s.rows i >>= fun row => Res.atZ row rank

/-- `GetFitValues(redshiftVal, rank)` (templatesfitstore.cpp:196-249). The loop of lines 236-242 reads the ten first
redshifts of the grid, whatever its size. -/
def fitValues (s : Store K α) (z : K) (rank : Int) : Res (Sol K α) :=
  if (s.count : Int) - 1 < rank then .throw .INTERNAL_ERROR
  else if rank < 0 then .throw .INTERNAL_ERROR
  else
    Res.at_ s.grid 0 >>= fun lo =>
    Res.at_ s.grid (s.grid.length - 1) >>= fun hi =>
    if z < lo ∨ hi < z then .throw .INTERNAL_ERROR
    else
      let i := redshiftIndex s z
      if i < 0 then
        Res.foldN (fun k (_ : Unit) => Res.at_ s.grid k >>= fun _ => .ok ()) 0 10 () >>= fun _ =>
        .throw .INTERNAL_ERROR
      else Res.atZ s.rows i >>= fun row => Res.atZ row rank

/-- The best redshift so far in `FindMaxAmplitudeSigma` (templatesfitstore.cpp:258-264): `none` while the maximum is
minus infinity. -/
abbrev Max (K α : Type) := Option (K × Sol K α)

/-- One iteration of `FindMaxAmplitudeSigma` (templatesfitstore.cpp:257-265). -/
def maxStep (s : Store K α) (i : Nat) (b : Max K α) : Res (Max K α) :=
  Res.at_ s.rows i >>= fun row =>
  Res.at_ row 0 >>= fun v =>
  Res.at_ s.grid i >>= fun z =>
  .ok (if (match b with | none => true | some m => decide (m.2.sigma < v.sigma)) then some (z, v) else b)

/-- `FindMaxAmplitudeSigma` (templatesfitstore.cpp:251-268): the redshift and fit with the greatest sigma, `none` if
there is no redshift (the maximum is then minus infinity and the two output arguments are unchanged). -/
def findMax (s : Store K α) : Res (Max K α) := Res.foldN (maxStep s) 0 s.grid.length none

/-- A sequence of calls of `Add`; an exception leaves the store as it was (the throw of line 127 is before any
change). -/
def addAll (s : Store K α) : List (Sol K α) → Res (Store K α)
  | [] => .ok s
  | x :: l =>
    match add s x with
    | .ok s' => addAll s' l
    | .throw _ => addAll s l
    | .ub => .ub

end FitStore
end Amazed
