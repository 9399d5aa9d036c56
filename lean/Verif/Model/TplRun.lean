import Verif.Model.TplCatalog
import Verif.Model.TplSolve

set_option linter.unusedVariables false
set_option linter.unusedSectionVars false

/-! # The template solvers as users of the shared template catalogue (`src/lib/method/templatefittingsolve.cpp`:62-215, 355-478,
`src/lib/method/tplcombinationsolve.cpp`:55-150, 342-420)

The two flags of the catalogue tell which of its lists are read by the getters without flags. They are members of the catalogue, which all the
solvers of a run share. The fits, the PDF and the models are parameters, deterministic functions of what they are given; the components of the
spectra and templates, set and put back during a run, are the subject of `Verif.Model.TplSolve`. -/

namespace Amazed
namespace TplRun
open TplCat

variable {τ L R P C F M : Type}

/-- The results stored, by kind. -/
inductive Val (R P C M : Type) where
  | fit (r : R)
  | pdf (p : P)
  | cands (l : List C)
  | ext (l : List (C × M))

/-- What the solvers of a run share: the catalogue and the result store. -/
structure World (τ L R P C M : Type) where
  cat : Cat τ L
  store : ResultStore (Val R P C M)

/-- A step: the state it leaves, and how it ends. -/
abbrev Step (τ L R P C M A : Type) := World τ L R P C M → World τ L R P C M × Res A

/-- One step after another, which is skipped when the first one throws. -/
def next {A B : Type} (x : Step τ L R P C M A) (f : A → Step τ L R P C M B) : Step τ L R P C M B := fun w =>
  match x w with
  | (w', .ok a) => f a w'
  | (w', .throw e) => (w', .throw e)
  | (w', .ub) => (w', .ub)

/-- A computation on the current state, which leaves it unchanged. -/
def look {A : Type} (f : World τ L R P C M → Res A) : Step τ L R P C M A := fun w => (w, f w)

/-- Assignment of `m_logsampling`. -/
def setLog (b : Bool) : Step τ L R P C M Unit := fun w => (⟨{ w.cat with log := b }, w.store⟩, .ok ())

/-- `StoreScopedGlobalResult` under the scope `path`. -/
def put (path name : String) (v : Val R P C M) : Step τ L R P C M Unit := fun w =>
  (⟨w.cat, (w.store.storeGlobal path name v).1⟩, (w.store.storeGlobal path name v).2)

/-- `StoreScopedPerTemplateResult` under the scope `path`. -/
def putTpl (path tpl name : String) (v : Val R P C M) : Step τ L R P C M Unit := fun w =>
  (⟨w.cat, (w.store.storePerTemplate tpl path name v).1⟩, (w.store.storePerTemplate tpl path name v).2)

/-- A list of steps in order. -/
def seq {A : Type} (f : A → Step τ L R P C M Unit) : List A → Step τ L R P C M Unit
  | [] => look fun _ => .ok ()
  | a :: as => next (f a) fun _ => seq f as

/-- A list of steps in order, with their values. -/
def collect {A B : Type} (f : A → Step τ L R P C M B) : List A → Step τ L R P C M (List B)
  | [] => look fun _ => .ok []
  | a :: as => next (f a) fun b => next (collect f as) fun bs => look fun _ => .ok (b :: bs)

/-! ## Template fitting -/

/-- The operator created by `compute` (templatefittingsolve.cpp:102-117). -/
inductive Oper where
  | fft
  | phot
  | plain
deriving DecidableEq

/-- The parameters of the template fitting solver used here. -/
structure TfOpts where
  fft : Bool
  phot : Bool
  component : String

/-- What the template fitting solver calls: the fit of one template for one component, `BuildChisquareArray` followed by the PDF operator (with
the name of the results in the store), the checks of `buildExtremaResults`, its choice of the template and of the parameters for a candidate, and
the models of a candidate. -/
structure TfEnv (τ R P C F M : Type) where
  nm : Names τ
  fit : Oper → τ → TplSolve.EType → Res R
  pdf : String → ResultStore (Val R P C M) → Res (P × List C)
  check : String → ResultStore (Val R P C M) → Res Unit
  best : String → ResultStore (Val R P C M) → C → Res (String × F)
  model : Oper → τ → C → F → Res M

/-- The operator for the options (templatefittingsolve.cpp:102-117). -/
def oper (o : TfOpts) : Oper := if o.fft then .fft else if o.phot then .phot else .plain

/-- `Solve` for one template (templatefittingsolve.cpp:217-289): a result for each component. A null template is dereferenced. -/
def tfSolve (n : TfEnv τ R P C F M) (op : Oper) (path : String) (types : List TplSolve.EType) : Option τ → Step τ L R P C M Unit
  | none => look fun _ => .ub
  | some t => seq (fun ty => next (look fun _ => n.fit op t ty) fun r => putTpl path (n.nm.name t) (TplSolve.tfScope ty) (.fit r)) types

/-- The loop over the templates of the category (templatefittingsolve.cpp:171-179), `k` templates being left: the catalogue is read at each turn
with its current flags. -/
def tfLoop (n : TfEnv τ R P C F M) (op : Oper) (path category : String) (types : List TplSolve.EType) : Nat → Nat → Step τ L R P C M Unit
  | _, 0 => look fun _ => .ok ()
  | j, k + 1 => next (look fun w => getTemplate w.cat category j w.cat.ortho w.cat.log) fun t =>
      next (tfSolve n op path types t) fun _ => tfLoop n op path category types (j + 1) k

/-- One candidate of `buildExtremaResults` (templatefittingsolve.cpp:399-476): the flag is put back in the loop over the spectra, so not after an
exception. At least one spectrum is assumed (inputcontext.cpp refuses none). -/
def tfExtremum (n : TfEnv τ R P C F M) (op : Oper) (category scope : String) (c : C) : Step τ L R P C M (C × M) :=
  next (look fun w => n.best scope w.store c) fun b =>
  next (look fun w => .ok w.cat.log) fun cur =>
  next (setLog false) fun _ =>
  next (look fun w => getByName n.nm w.cat b.1 w.cat.ortho w.cat.log [category]) fun t =>
  next (look fun _ => n.model op t c b.2) fun m =>
  next (setLog cur) fun _ => look fun _ => .ok (c, m)

/-- `CTemplateFittingSolve::compute` (templatefittingsolve.cpp:62-215); the value is the candidate given to the caller. -/
def tfCompute (n : TfEnv τ R P C F M) (o : TfOpts) (path category : String) : Step τ L R P C M (C × M) :=
  next (look fun _ => if (o.fft && o.phot) = true then .throw .FFT_WITH_PHOTOMETRY_NOTIMPLEMENTED else .ok ()) fun _ =>
  next (setLog o.fft) fun _ =>
  next (look fun _ => TplSolve.tfComponent o.component) fun cs =>
  next (look fun w => if count w.cat category w.cat.ortho w.cat.log = 0 then .throw .BAD_TEMPLATECATALOG else
    .ok (count w.cat category w.cat.ortho w.cat.log)) fun k =>
  next (tfLoop n (oper o) path category cs.1.types 0 k) fun _ =>
  next (look fun w => n.pdf cs.2 w.store) fun pc =>
  next (put path "pdf" (.pdf pc.1)) fun _ =>
  next (put path "pdf_params" (.pdf pc.1)) fun _ =>
  next (put path "candidatesresult" (.cands pc.2)) fun _ =>
  next (if o.fft then setLog false else look fun _ => .ok ()) fun _ =>
  next (look fun w => n.check cs.2 w.store) fun _ =>
  next (collect (tfExtremum n (oper o) category cs.2) pc.2) fun l =>
  next (put path "extrema_results" (.ext l)) fun _ =>
  look fun _ => Res.at_ l 0

/-! ## Template combination -/

/-- The parameters of the template combination solver used here. -/
structure TcOpts where
  interp : String
  component : String

/-- What the template combination solver calls: the checks of the templates (`checkTemplates`), the fit of the templates for one component (`none`: a
null pointer), the PDF, the checks of `buildExtremaResults`, its parameters for a candidate, and the model (`none`: a null pointer). -/
structure TcEnv (τ R P C F M : Type) where
  check : List (Option τ) → Res Unit
  fit : List (Option τ) → TplSolve.EType → Res (Option R)
  pdf : String → ResultStore (Val R P C M) → Res (P × List C)
  params : String → ResultStore (Val R P C M) → C → Res F
  model : List (Option τ) → C → F → Res (Option M)

/-- The loop of `Solve` over the components (tplcombinationsolve.cpp:195-225): it stops, without an error, when there is no result. -/
def tcLoop (n : TcEnv τ R P C F M) (path : String) (ts : List (Option τ)) : List TplSolve.EType → Step τ L R P C M Unit
  | [] => look fun _ => .ok ()
  | ty :: tys => next (look fun _ => n.fit ts ty) fun r =>
      match r with
      | none => look fun _ => .ok ()
      | some r => next (put path (TplSolve.tcScope ty) (.fit r)) fun _ => tcLoop n path ts tys

/-- `GetTemplateList({category})` (catalog.cpp:69-88, catalog.h:149-155): the list of the current flags. -/
def current (category : String) : Step τ L R P C M (List (Option τ)) := look fun w => .ok (templateList w.cat w.cat.ortho w.cat.log [category])

/-- The test of the model (tplcombinationsolve.cpp:413-415). -/
def nonNullModel (c : C) : Option M → Res (C × M)
  | none => .throw .INTERNAL_ERROR
  | some m => .ok (c, m)

/-- One candidate of `buildExtremaResults` (tplcombinationsolve.cpp:379-416), with the templates `ts` read before the flag is cleared. -/
def tcExtremum (n : TcEnv τ R P C F M) (scope : String) (ts : List (Option τ)) (c : C) : Step τ L R P C M (C × M) :=
  next (look fun w => n.params scope w.store c) fun b =>
  next (look fun w => .ok w.cat.log) fun cur =>
  next (setLog false) fun _ =>
  next (look fun _ => n.model ts c b) fun m =>
  next (setLog cur) fun _ => look fun _ => nonNullModel c m

/-- `CTplCombinationSolve::compute` (tplcombinationsolve.cpp:55-150); the value is the candidate given to the caller. -/
def tcCompute (n : TcEnv τ R P C F M) (o : TcOpts) (path category : String) : Step τ L R P C M (C × M) :=
  next (look fun _ => TplSolve.tcComponent o.component) fun cs =>
  next (look fun _ => if o.interp ≠ "lin" then .throw .INTERNAL_ERROR else .ok ()) fun _ =>
  next (current category) fun ts =>
  next (look fun _ => n.check ts) fun _ =>
  next (tcLoop n path ts cs.1.types) fun _ =>
  next (look fun w => n.pdf cs.2 w.store) fun pc =>
  next (put path "pdf" (.pdf pc.1)) fun _ =>
  next (put path "pdf_params" (.pdf pc.1)) fun _ =>
  next (put path "candidatesresult" (.cands pc.2)) fun _ =>
  next (current category) fun ts =>
  next (collect (tcExtremum n cs.2 ts) pc.2) fun l =>
  next (put path "extrema_results" (.ext l)) fun _ =>
  look fun _ => Res.at_ l 0

/-! ## Runs of several solvers -/

/-- A solver of a run. The line model solver reads the templates of its category with the current flags (operator/linemodel.cpp:102,
linemodel/continuummanager.cpp:97, 183, 249) and other lists by their flags, and does not change the catalogue: any function of these. -/
inductive Job (τ L R P C F M : Type) where
  | tf (n : TfEnv τ R P C F M) (o : TfOpts) (path category : String)
  | tc (n : TcEnv τ R P C F M) (o : TcOpts) (path category : String)
  | lm (f : (Bool → Bool → String → Option (List (Option τ))) → Option (List (Option τ)) → ResultStore (Val R P C M) →
      ResultStore (Val R P C M) × Res (C × M)) (category : String)

/-- The run of a solver. -/
def Job.run : Job τ L R P C F M → Step τ L R P C M (C × M)
  | .tf n o path category => tfCompute n o path category
  | .tc n o path category => tcCompute n o path category
  | .lm f category => fun w => (⟨w.cat, (f w.cat.lists (w.cat.lists w.cat.ortho w.cat.log category) w.store).1⟩,
      (f w.cat.lists (w.cat.lists w.cat.ortho w.cat.log category) w.store).2)

/-- The solvers one after the other; an exception of one of them is caught by the caller, who goes on (as in `Verif.Model.SolveRun`). -/
def session : List (Job τ L R P C F M) → World τ L R P C M → World τ L R P C M
  | [], w => w
  | j :: js, w => session js (j.run w).1

/-- The flags set by `CInputContext::Init` (inputcontext.cpp:223-224). -/
def initFlags (w : World τ L R P C M) : World τ L R P C M := ⟨{ w.cat with ortho := false, log := false }, w.store⟩

end TplRun
end Amazed
