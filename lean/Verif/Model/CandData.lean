import Verif.Model.ResultStore

set_option linter.unusedVariables false

/-! # The datasets of the candidates in the result store

`getCandidate`, `getCandidateDatasetType` and `HasCandidateDataset` of the results of candidates (operator/extremaresult.cpp:44-77, linemodel/linemodelextremaresult.cpp:178-233,
operator/tplCombinationExtremaResult.cpp:44-72, the base class in processflow/result.h:62-79) and the getters of `COperatorResultStore` that read them
(processflow/resultstore.cpp:226-417). Objects are compared by their class and a payload of type `R`; a null pointer is `none`. The pointers stored in the store itself are not null. -/

namespace Amazed
namespace CandData

/-- The classes of the objects that are stored or returned for a candidate. -/
inductive Kind | candidateZ | extrema | lineModel | tplCombination | spectrum | photValues | solution | logZPdf | flagLog | classification | reliability | lmResult
deriving DecidableEq, Repr

/-- `getType()` (extremaresult.i:49, linemodelextremaresult.i:43, tplCombinationExtremaResult.i:44, and the constructors of the other results). -/
def Kind.typeName : Kind → String
  | .candidateZ => "TCandidateZ"
  | .extrema => "TExtremaResult"
  | .lineModel => "TLineModelResult"
  | .tplCombination => "TTplCombinationResult"
  | .spectrum => "CModelSpectrumResult"
  | .photValues => "CModelPhotValueResult"
  | .solution => "CLineModelSolution"
  | .logZPdf => "CLogZPdfResult"
  | .flagLog => "CFlagLogResult"
  | .classification => "CClassificationResult"
  | .reliability => "CReliabilityResult"
  | .lmResult => "CLineModelResult"

/-- Is class `a` the class `b` or derived from it (extremaresult.i:42, linemodelextremaresult.i:40, tplCombinationExtremaResult.i:39)? -/
def Kind.isA (a b : Kind) : Bool :=
  a == b || (b == .extrema && (a == .lineModel || a == .tplCombination)) || (b == .candidateZ && (a == .extrema || a == .lineModel || a == .tplCombination))

/-- An object of one of these classes. -/
structure Leaf (R : Type) where
  kind : Kind
  val : R
deriving DecidableEq

/-- A stored result: an object without candidates, or a list of candidates with the data of each (extremaresult.h:58-82, linemodelextremaresult.h:62-93,
tplCombinationExtremaResult.h:49-66, pdfcandidateszresult.h:50-80). A candidate of the line model carries its `ParentObject`. -/
inductive Obj (R : Type) where
  | plain (l : Leaf R)
  | pdfCands (cands : List R)
  | extrema (cands : List R) (models phots : List (Option R))
  | lineModel (cands : List (R × Option R)) (fits models conts phots : List (Option R))
  | tplComb (cands : List R) (models : List (Option R))

variable {R : Type}

/-- `v[rank]` of a vector, out of bounds undefined. -/
def idx {α : Type} (l : List α) (rank : Int) : Res α := if rank < 0 then .ub else Res.at_ l rank.toNat

/-- A pointer of a class, from a vector of pointers. -/
def pick (k : Kind) (l : List (Option R)) (rank : Int) : Res (Option (Leaf R)) := idx l rank >>= fun o => .ok (o.map fun v => ⟨k, v⟩)

/-- The same from a vector of candidates, whose pointers are set by `make_shared`. -/
def pickC (k : Kind) (l : List R) (rank : Int) : Res (Option (Leaf R)) := idx l rank >>= fun v => .ok (some ⟨k, v⟩)

/-- `getCandidateParent` (linemodelextremaresult.cpp:224-233). -/
def parent (cands : List (R × Option R)) (rank : Int) (d : String) : Res (Option (Leaf R)) :=
  if d = "model_parameters" then idx cands rank >>= fun c => .ok (c.2.map fun v => ⟨.lineModel, v⟩) else .throw .UNKNOWN_ATTRIBUTE

/-- `getCandidate` of `ExtremaResult` (extremaresult.cpp:44-58). -/
def getE (cands : List R) (models phots : List (Option R)) (rank : Int) (d : String) : Res (Option (Leaf R)) :=
  if d = "model_parameters" then pickC .extrema cands rank
  else if d = "model" then pick .spectrum models rank
  else if d = "PhotometricModel" then pick .photValues phots rank
  else .throw .UNKNOWN_ATTRIBUTE

/-- `getCandidate` of `LineModelExtremaResult` without `firstpassResult` (linemodelextremaresult.cpp:184-197). -/
def getL (cands : List (R × Option R)) (fits models conts phots : List (Option R)) (rank : Int) (d : String) : Res (Option (Leaf R)) :=
  if d = "model_parameters" ∨ d = "line_mask" ∨ d = "continuum_polynom" then pickC .lineModel (cands.map (·.1)) rank
  else if d = "fitted_lines" ∨ d = "fp_fitted_lines" then pick .solution fits rank
  else if d = "model" then pick .spectrum models rank
  else if d = "continuum" then pick .spectrum conts rank
  else if d = "PhotometricModel" then pick .photValues phots rank
  else .throw .UNKNOWN_ATTRIBUTE

/-- `getCandidate` of `TplCombinationExtremaResult` (tplCombinationExtremaResult.cpp:44-55). -/
def getT (cands : List R) (models : List (Option R)) (rank : Int) (d : String) : Res (Option (Leaf R)) :=
  if d = "model_parameters" ∨ d = "modeltplCombination_parameters" then pickC .tplCombination cands rank
  else if d = "model" then pick .spectrum models rank
  else .throw .UNKNOWN_ATTRIBUTE

/-- `getCandidate` of a stored result; the base class throws (result.h:68-73). -/
def getCandidate (o : Obj R) (rank : Int) (d : String) (fp : Bool) : Res (Option (Leaf R)) :=
  match o with
  | .plain _ => .throw .UNKNOWN_ATTRIBUTE
  | .pdfCands _ => .throw .UNKNOWN_ATTRIBUTE
  | .extrema c m p => getE c m p rank d
  | .lineModel c f m k p => if fp then parent c rank d else getL c f m k p rank d
  | .tplComb c m => getT c m rank d

/-- `x->getType()`: undefined on a null pointer. -/
def typeOf (x : Res (Option (Leaf R))) : Res String := x >>= fun o => match o with | some l => .ok l.kind.typeName | none => .ub

/-- `getCandidateDatasetType` (extremaresult.cpp:60-72, linemodelextremaresult.cpp:199-214, tplCombinationExtremaResult.cpp:57-66): the type of the object of the first candidate;
the base class throws (result.h:62-66). -/
def datasetType (o : Obj R) (d : String) : Res String :=
  match o with
  | .plain _ => .throw .UNKNOWN_ATTRIBUTE
  | .pdfCands _ => .throw .UNKNOWN_ATTRIBUTE
  | .extrema c m p => typeOf (getE c m p 0 d)
  | .lineModel c f m k p => typeOf (getL c f m k p 0 d)
  | .tplComb c m => typeOf (getT c m 0 d)

/-- `HasCandidateDataset` (extremaresult.cpp:74-77, linemodelextremaresult.cpp:216-222, tplCombinationExtremaResult.cpp:68-72; the base class throws, result.h:75-78). -/
def hasDs (o : Obj R) (d : String) : Res Bool :=
  match o with
  | .plain _ => .throw .UNKNOWN_ATTRIBUTE
  | .pdfCands _ => .throw .UNKNOWN_ATTRIBUTE
  | .extrema _ _ _ => .ok (d == "model_parameters" || d == "model" || d == "PhotometricModel")
  | .lineModel _ _ _ _ _ => .ok (d == "model_parameters" || d == "model" || d == "continuum" || d == "fitted_lines" || d == "fp_fitted_lines" || d == "line_mask" ||
      d == "continuum_polynom" || d == "PhotometricModel")
  | .tplComb _ _ => .ok (d == "model_parameters" || d == "model" || d == "modeltplCombination_parameters")

/-- `dynamic_pointer_cast` to a class: null if the object is of another class. -/
def cast (k : Kind) (o : Option (Leaf R)) : Option (Leaf R) := o.filter fun l => l.kind.isA k

/-- The path of a result: spectrum model, stage, method, name. -/
structure Path where
  spectrumModel : String
  stage : String
  method : String
  name : String

/-- `GetGlobalResult(spectrumModel, stage, method, name)` (resultstore.cpp:183-187). -/
def find (s : ResultStore (Obj R)) (p : Path) : Res (Obj R) := s.getGlobal4 p.spectrumModel p.stage p.method p.name

/-- `HasCandidateDataset` of the store (resultstore.cpp:359-369). -/
def hasCandidateDataset (s : ResultStore (Obj R)) (p : Path) (d : String) : Res Bool :=
  if s.hasDataset p.spectrumModel p.stage p.method p.name then find s p >>= fun o => hasDs o d else .ok false

/-- `GetCandidateResultType` (resultstore.cpp:350-357). -/
def candidateResultType (s : ResultStore (Obj R)) (p : Path) (d : String) : Res String := find s p >>= fun o => datasetType o d

/-- `GetLineModelResult` (resultstore.cpp:226-244): the only getter that refuses an object of another class. -/
def getLineModelResult (s : ResultStore (Obj R)) (p : Path) (d : String) (rank : Int) (fp : Bool) : Res (Option (Leaf R)) :=
  find s p >>= fun o => getCandidate o rank d fp >>= fun c => if (cast .lineModel c).isNone ∧ c.isSome then .throw .INTERNAL_ERROR else .ok (cast .lineModel c)

/-- `GetTplCombinationResult`, `GetExtremaResult`, and the overloads of `GetModelSpectrumResult`, `GetModelPhotValueResult` and `GetLineModelSolution` for a candidate
(resultstore.cpp:246-277, 288-331): the object of the class `k`, or null. -/
def getAs (k : Kind) (s : ResultStore (Obj R)) (p : Path) (d : String) (rank : Int) : Res (Option (Leaf R)) :=
  find s p >>= fun o => getCandidate o rank d false >>= fun c => .ok (cast k c)

/-- The getters of results without candidates (resultstore.cpp:189-224, 279-286, 333-342): the object of the class `k`, or null. -/
def getPlain (k : Kind) (s : ResultStore (Obj R)) (p : Path) : Res (Option (Leaf R)) :=
  find s p >>= fun o => match o with | .plain l => .ok (cast k (some l)) | _ => .ok none

/-- `getNbRedshiftCandidates` (resultstore.cpp:398-417). -/
def nbCandidates (s : ResultStore (Obj R)) (spectrumModel stage method : String) : Res Nat :=
  find s ⟨spectrumModel, stage, method, "extrema_results"⟩ >>= fun o =>
  .ok (match o with
    | .plain _ => 0
    | .pdfCands c => c.length
    | .extrema c _ _ => c.length
    | .lineModel c _ _ _ _ => c.length
    | .tplComb c _ => c.length)

end CandData
end Amazed
