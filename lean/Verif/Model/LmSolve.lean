import Verif.Model.PdfOp
import Verif.Model.LmCands
import Verif.Model.ResultStore

set_option linter.unusedVariables false
set_option linter.unusedSectionVars false

/-! # `CLineModelSolve::compute` and `CLineModelSolve::Solve` (`src/lib/method/linemodelsolve.cpp`:114-187, 489-607)

The steps of the two passes are parameters, deterministic functions of what they are given: `first` is `Init` and `ComputeFirstPass` of a line
model operator, as a function of the parameter `lineModel.continuumComponent` (linemodel.cpp:81-95, 1549-1560: it is read from the parameter
store, nothing else tells the two first passes apart). The search of the candidates is that of `Verif.Model.PdfOp`, the lists of candidates those
of `Verif.Model.LmCands`. -/

namespace Amazed
namespace LmSolve
open LmResult LmCands PdfOp

variable {V S C E : Type}

/-- The results stored, by kind. -/
inductive Val (V S C E : Type) where
  | pdf (p : List ℝ)
  | fpExtrema (l : List (ZCand ℝ × S × C))
  | lm (r : LmRes ℝ V S C)
  | extrema (e : E)

/-- The parameters read by `PopulateParameters` (linemodelsolve.cpp:61-104) and used here. -/
structure Opts where
  comb : String
  halfWindow : ℝ
  cut : ℝ
  maxCand : Int
  extCount : Int
  extCountB : Int
  cont : String
  skip : Bool

/-- What the solver calls. `chi` is `BuildChisquareArray` without the grids of the windows, `regrid` the grid rebuilt by the PDF operator from the
windows, `second` is `ComputeSecondPass` with `getSPZGridParams`: the new result and the ranges of the windows. `extr` is
`buildExtremaResults`. -/
structure Env (V S C E : Type) where
  first : String → Res (LmRes ℝ V S C)
  chi : LmRes ℝ V S C → Res Pdfz.ChisquareArray
  regrid : LmRes ℝ V S C → List (Range ℝ) → Res (List ℝ)
  second : LmRes ℝ V S C → PassRes ℝ C → List (ZCand ℝ × S × C) → Res (LmRes ℝ V S C × List (Range ℝ))
  extr : LmRes ℝ V S C → PassRes ℝ C → List Out → Res E
  elv : S → Option ℝ
  alv : S → Option ℝ
  c0 : C
  name : C → String
  sorter : List (Option ℝ) → List Nat
  zsorter : List (Candidates.Cand ℝ) → List (Candidates.Cand ℝ)

/-- The operator of the first passes (linemodelsolve.cpp:515-519, 561-565). -/
def fpCfg (o : Opts) (pre : String) : Cfg := ⟨o.comb, 2 * o.halfWindow, o.cut, o.maxCand, true, 0, pre⟩

/-- The operator of the final candidates (linemodelsolve.cpp:145-154). -/
def spCfg (o : Opts) : Cfg := ⟨o.comb, 0, 0, o.extCount, false, 1, "SPE"⟩

/-- Candidates as they are kept by the line model operator. -/
def zcand (x : Out) : ZCand ℝ := ⟨x.id, x.z, x.parent⟩

/-- Candidates and PDF of a result (linemodelsolve.cpp:512-521, 557-567): `ids` and `rs` are the candidates of the first pass and their windows. -/
noncomputable def find (n : Env V S C E) (c : Cfg) (r : LmRes ℝ V S C) (ids : List String) (rs : List (Range ℝ)) : Res (List Out × List ℝ) := do
  let a ← n.chi r
  let l ← PdfOp.compute c n.sorter n.zsorter (n.regrid r rs) a ids rs
  let p ← Pdfz.combinePdf c.opt a
  .ok (l, p)

/-- A first pass with its candidates (linemodelsolve.cpp:495-522, 540-569), with the identifiers `pre`. -/
noncomputable def pass (o : Opts) (n : Env V S C E) (pre : String) : Res (LmRes ℝ V S C × PassRes ℝ C × List ℝ) := do
  let r ← n.first o.cont
  let x ← find n (fpCfg o pre) r [] []
  let p ← setFirst n.elv n.alv n.c0 r (x.1.map zcand) ⟨[], [], [], []⟩
  .ok (r, p, x.2)

/-- `enableFirstpass_B` (linemodelsolve.cpp:532-535). -/
def enableB (o : Opts) : Bool := decide (0 < o.extCountB) && (o.cont == "tplFit" || o.cont == "tplFitAuto") && decide (1 < o.extCountB)

/-- First pass B and combination (linemodelsolve.cpp:532-577). -/
noncomputable def withB (o : Opts) (n : Env V S C E) (r : LmRes ℝ V S C) (p : PassRes ℝ C) : Res (PassRes ℝ C) :=
  if enableB o then do
    let b ← pass o n "FPB"
    combine (5 / 10000) n.name n.c0 r p b.2.1
  else .ok p

/-- The state and the end of a step, the next step run only after a normal end. -/
def andThen {A B : Type} (x : ResultStore (Val V S C E) × Res A) (f : A → ResultStore (Val V S C E) → ResultStore (Val V S C E) × Res B) :
    ResultStore (Val V S C E) × Res B :=
  match x.2 with
  | .ok a => f a x.1
  | .throw e => (x.1, .throw e)
  | .ub => (x.1, .ub)

/-- The second pass (linemodelsolve.cpp:591-592). -/
def secondIf (o : Opts) (n : Env V S C E) (r : LmRes ℝ V S C) (p : PassRes ℝ C) (l : List (ZCand ℝ × S × C)) :
    Res (LmRes ℝ V S C × List (Range ℝ)) :=
  if o.skip then .ok (r, []) else n.second r p l

/-- `Solve` (linemodelsolve.cpp:489-607) with the results stored under `path`; the value is what the operator holds for `compute`: the candidates of
the first pass and the windows. -/
noncomputable def solve (o : Opts) (n : Env V S C E) (path : String) (s : ResultStore (Val V S C E)) :
    ResultStore (Val V S C E) × Res (PassRes ℝ C × List (Range ℝ)) :=
  andThen (s, pass o n "FPE") fun a s =>
  andThen (s.storeGlobal path "firstpass_pdf" (.pdf a.2.2)) fun _ s =>
  andThen (s.storeGlobal path "firstpass_pdf_params" (.pdf a.2.2)) fun _ s =>
  andThen (s, withB o n a.1 a.2.1) fun p s =>
  andThen (s, firstExtrema a.1 p) fun l s =>
  andThen (s.storeGlobal path "lineModel_firstpass_extrema" (.fpExtrema l)) fun _ s =>
  andThen (s, secondIf o n a.1 p l) fun w s =>
  andThen (s.storeGlobal path "lineModel" (.lm w.1)) fun _ s =>
  (s, .ok (p, w.2))

/-- The stored line model result (linemodelsolve.cpp:122-127). -/
def readLm (path : String) (s : ResultStore (Val V S C E)) : Res (LmRes ℝ V S C) :=
  s.getGlobal (ResultStore.storeKey path "lineModel") >>= fun v => match v with
    | .lm r => .ok r
    | _ => .ub

/-- The identifiers of the parents (linemodelsolve.cpp:326-328): none without windows. -/
def parents (p : PassRes ℝ C) (rs : List (Range ℝ)) : Res (List String) :=
  if rs = [] then .ok [] else Res.tab (fun i => p.cand i >>= fun c => .ok c.id) p.cands.length

/-- `compute` (linemodelsolve.cpp:114-187); the value is the candidate given to the solve result. -/
noncomputable def compute (o : Opts) (n : Env V S C E) (path : String) (s : ResultStore (Val V S C E)) :
    ResultStore (Val V S C E) × Res Out :=
  andThen (solve o n path s) fun q s =>
  andThen (s, readLm path s) fun r s =>
  andThen (s, parents q.1 q.2 >>= fun ids => find n (spCfg o) r ids q.2) fun x s =>
  andThen (s.storeGlobal path "pdf" (.pdf x.2)) fun _ s =>
  andThen (s.storeGlobal path "pdf_params" (.pdf x.2)) fun _ s =>
  andThen (s, n.extr r q.1 x.1) fun e s =>
  andThen (s.storeGlobal path "extrema_results" (.extrema e)) fun _ s =>
  (s, Res.at_ x.1 0)

end LmSolve
end Amazed
