import Verif.Model.Pdfz
import Verif.Model.SecondPass

set_option linter.unusedVariables false
set_option linter.unusedSectionVars false

/-! # From the line model results to the input of the redshift PDF

`src/lib/method/linemodelsolve.cpp` (`BuildZpriors`, `BuildChisquareArray`, `fillChisquareArrayForTplRatio`) and the line presence
functions of `src/lib/operator/linemodelresult.cpp`. Merits are real numbers (NaN not represented, as in `Verif.Model.Pdfz`); line amplitudes
can be NaN (`none`). The second pass grids and the parent candidates, copied to the array, are not modelled. -/

namespace Amazed
namespace ChiArray
open LmResult

/-- The members of `CLine` used here. -/
structure LineInfo where
  strong : Bool
  emission : Bool
  name : String

/-- The members of `CLineModelSolution` used here (linemodelsolution.h), one entry per line of the catalogue. -/
structure Sol where
  lineId : List Int
  amps : List (Option ℝ)
  out : List Bool

/-- `restLineList` (a `std::map` by identifier). -/
abbrev Cat := Int → Option LineInfo

/-- `restLineList.at(id)`. -/
def Cat.get (cat : Cat) (id : Int) : Res LineInfo :=
  match cat id with
  | none => .throw .STD_OUT_OF_RANGE
  | some l => .ok l

/-- `amplitude > 0.0`, false for NaN. -/
noncomputable def pos (a : Option ℝ) : Bool := open Classical in (a.map fun v => decide (0 < v)).getD false

/-- `lineDoesntMatchStrongFilter`, negated (linemodelresult.cpp:360-365). -/
def matches_ (filter : Int) (l : LineInfo) : Bool :=
  l.strong && !(decide (filter = 1) && !l.emission) && !(decide (filter = 2) && l.emission)

/-- The loop over the lines of one solution of `getStrongLinesPresence` (linemodelresult.cpp:370-380), from line `j`, `n` lines left.
`isLineValid` (linemodelsolution.cpp:67-71) raises on an empty solution, which has no line to test. -/
noncomputable def strongFrom (cat : Cat) (filter : Int) (s : Sol) (j : Nat) : Nat → Res Bool
  | 0 => .ok false
  | n + 1 => do
    let id ← Res.at_ s.lineId j
    let l ← cat.get id
    if !matches_ filter l then strongFrom cat filter s (j + 1) n
    else
      let o ← Res.at_ s.out j
      let a ← Res.at_ s.amps j
      if !o && pos a then .ok true else strongFrom cat filter s (j + 1) n

/-- `getStrongLinesPresence` (linemodelresult.cpp:355-385). -/
noncomputable def strongLines (cat : Cat) (filter : Int) (sols : List Sol) : Res (List Bool) :=
  Res.tab (fun i => Res.at_ sols i >>= fun s => strongFrom cat filter s 0 s.amps.length) sols.length

/-- The strongest line so far: `ampMax` and `ampMaxLineTag` (none: `-DBL_MAX` and undefined). -/
abbrev Top := Option (ℝ × String)

/-- `Amplitudes[j] > ampMax` and the assignments (linemodelresult.cpp:416-419). -/
noncomputable def topUpd (a : Option ℝ) (name : String) (t : Top) : Top :=
  match a with
  | none => t
  | some v => match t with
    | none => some (v, name)
    | some b => open Classical in if b.1 < v then some (v, name) else some b

/-- One line of `getStrongestLineIsHa` (linemodelresult.cpp:406-420). -/
noncomputable def topStep (cat : Cat) (s : Sol) (j : Nat) (t : Top) : Res Top := do
  let id ← Res.at_ s.lineId j
  let l ← cat.get id
  if !l.emission then .ok t
  else
    let o ← Res.at_ s.out j
    if o then .ok t
    else
      let a ← Res.at_ s.amps j
      .ok (topUpd a l.name t)

/-- The result for one solution (linemodelresult.cpp:422-424). -/
noncomputable def isHa (t : Top) : Bool :=
  match t with
  | none => false
  | some b => open Classical in decide (0 < b.1) && decide (b.2 = "Halpha")

/-- `getStrongestLineIsHa` (linemodelresult.cpp:402-434). -/
noncomputable def haStrongest (cat : Cat) (sols : List Sol) : Res (List Bool) :=
  Res.tab (fun i => Res.at_ sols i >>= fun s => Res.foldN (topStep cat s) 0 s.amps.length none >>= fun t => .ok (isHa t)) sols.length

/-- The options of the method (linemodelsolve.cpp:66-108). -/
structure Opts where
  combine : String
  ratioType : String
  strong : ℝ
  ha : ℝ
  nha : ℝ

variable {C : Type}

/-- The presence of strong lines: from the solutions, or of ratio catalog `k` (linemodelsolve.cpp:255-268). -/
noncomputable def presence (cat : Cat) (r : LmRes ℝ ℝ Sol C) (k : Option Nat) : Res (List Bool) :=
  match k with
  | none => strongLines cat 1 r.lmSol
  | some k => Res.at_ r.ratStrong k

/-- The same for H-alpha (linemodelsolve.cpp:276-288). -/
noncomputable def presenceHa (cat : Cat) (r : LmRes ℝ ℝ Sol C) (k : Option Nat) : Res (List Bool) :=
  match k with
  | none => haStrongest cat r.lmSol
  | some k => Res.at_ r.ratHa k

/-- First prior of `BuildZpriors` (linemodelsolve.cpp:255-272). -/
noncomputable def prior1 (o : Opts) (cat : Cat) (r : LmRes ℝ ℝ Sol C) (k : Option Nat) : Res (List ℝ) :=
  open Classical in
  if 0 < o.strong then presence cat r k >>= fun b => Pdfz.linePresencePrior false [] b o.strong
  else Pdfz.constantPrior false [] r.redshifts.length

/-- The prior of H-alpha combined (linemodelsolve.cpp:274-290). -/
noncomputable def prior2 (o : Opts) (cat : Cat) (r : LmRes ℝ ℝ Sol C) (k : Option Nat) (p : List ℝ) : Res (List ℝ) :=
  open Classical in
  if 0 < o.ha then presenceHa cat r k >>= fun b => Pdfz.linePresencePrior false [] b o.ha >>= fun q => Pdfz.combinePrior false [] p q
  else .ok p

/-- The prior on the number of H-alpha emitters combined (linemodelsolve.cpp:292-296). -/
noncomputable def prior3 (o : Opts) (r : LmRes ℝ ℝ Sol C) (p : List ℝ) : Res (List ℝ) :=
  open Classical in
  if 0 < o.nha then Pdfz.nhaPrior false [] r.redshifts o.nha >>= fun q => Pdfz.combinePrior false [] p q
  else .ok p

/-- `BuildZpriors(result, kTplRatio)` (linemodelsolve.cpp:238-317). The prior on the number of lines is never used: its factor is -1
(:220-221). -/
noncomputable def zpriors (o : Opts) (cat : Cat) (r : LmRes ℝ ℝ Sol C) (k : Option Nat) : Res (List ℝ) :=
  prior1 o cat r k >>= fun p => prior2 o cat r k p >>= fun p => prior3 o r p

/-- The merits of ratio catalog `k`, with the prior of its lines added when there is one per redshift (linemodelsolve.cpp:437-460). -/
def ratioChi2 (r : LmRes ℝ ℝ Sol C) (k : Nat) : Res (List ℝ) := do
  let chi ← Res.at_ r.ratChi2 k
  if r.ratPriorLines.length ≠ r.ratChi2.length then .ok chi
  else
    let pl ← Res.at_ r.ratPriorLines k
    if pl.length ≠ r.redshifts.length then .ok chi
    else
      Res.foldN (fun kz c => Res.at_ c kz >>= fun a => Res.at_ pl kz >>= fun b => SecondPass.setElt c kz (a + b)) 0 r.redshifts.length chi

/-- `fillChisquareArrayForTplRatio` (linemodelsolve.cpp:409-465): merits, priors, model priors. -/
noncomputable def fillRatio (o : Opts) (cat : Cat) (r : LmRes ℝ ℝ Sol C) : Res (List (List ℝ) × List (List ℝ) × List ℝ) := do
  let p ← Res.tab (fun k => zpriors o cat r (some k)) r.ratChi2.length
  let c ← Res.tab (ratioChi2 r) r.ratChi2.length
  .ok (c, p, r.ratPrior)

/-- The merits of a model with another continuum (linemodelsolve.cpp:390-395). -/
noncomputable def otherCont (base first other : List ℝ) (zsize : Nat) : Res (List ℝ) :=
  Res.tab (fun iz => Res.at_ base iz >>= fun b => Res.at_ other iz >>= fun t => Res.at_ first iz >>= fun u => .ok (b + max 0 (t - u))) zsize

/-- The arrays in construction. -/
structure Arr where
  chi : List (List ℝ)
  pri : List (List ℝ)
  mp : List ℝ

/-- One continuum for model `k` (linemodelsolve.cpp:385-400). -/
noncomputable def contStep (first : List ℝ) (zsize k : Nat) (other : List ℝ) (x : Arr) : Res Arr := do
  let p ← Res.at_ x.pri k
  let b ← Res.at_ x.chi k
  let c ← otherCont b first other zsize
  if x.mp = [] then .ok ⟨x.chi ++ [c], x.pri ++ [p], x.mp⟩
  else
    let m ← Res.at_ x.mp k
    .ok ⟨x.chi ++ [c], x.pri ++ [p], x.mp ++ [m]⟩

/-- The loops over the models and the continua but the first (linemodelsolve.cpp:376-402), after the division of the model priors
(:366-371). -/
noncomputable def addContinua (tpl : List (List ℝ)) (zsize : Nat) (x : Arr) : Res Arr :=
  match tpl with
  | [] => .ok x
  | first :: others =>
    Res.foldN (fun k y => EltList.foldL (contStep first zsize k) others y) 0 x.chi.length
      ⟨x.chi, x.pri, x.mp.map (fun p => p / (tpl.length : ℝ))⟩

/-- The first arrays: one model, or one per ratio catalog (linemodelsolve.cpp:343-354). -/
noncomputable def baseArr (o : Opts) (cat : Cat) (r : LmRes ℝ ℝ Sol C) : Res Arr :=
  if o.ratioType ≠ "tplRatio" then zpriors o cat r none >>= fun p => .ok ⟨[r.chi2], [p], []⟩
  else fillRatio o cat r >>= fun x => .ok ⟨x.1, x.2.1, x.2.2⟩

/-- `BuildChisquareArray` (linemodelsolve.cpp:319-407). -/
noncomputable def build (o : Opts) (cat : Cat) (cst : ℝ) (r : LmRes ℝ ℝ Sol C) : Res Pdfz.ChisquareArray :=
  if o.combine ≠ "bestChi2" ∧ o.combine ≠ "bestproba" ∧ o.combine ≠ "marg" then .throw .BAD_PARAMETER_VALUE
  else if o.combine = "bestChi2" then
    zpriors o cat r none >>= fun p => .ok ⟨r.redshifts, [r.chi2], [p], [], cst⟩
  else
    baseArr o cat r >>= fun x =>
    addContinua r.tplCont r.redshifts.length x >>= fun y =>
    .ok ⟨r.redshifts, y.chi, y.pri, y.mp, cst⟩

end ChiArray
end Amazed
