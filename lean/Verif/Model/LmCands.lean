import Verif.Model.SecondPass

set_option linter.unusedVariables false
set_option linter.unusedSectionVars false

/-! # Candidates of the line model: after the first pass, combination of two first passes, final results

`src/lib/operator/linemodelpassextremaresult.cpp` and `src/lib/operator/linemodel.cpp` (`SetFirstPassCandidates`,
`buildFirstPassExtremaResults`, `Combine_firstpass_candidates`, `buildExtremaResults`). Velocities that can be NaN are `Option K`. The
velocities by groups are not modelled. -/

namespace Amazed
namespace LmCands
open LmResult SecondPass

variable {K V S C : Type} [Field K] [LinearOrder K] [IsStrictOrderedRing K]

/-- An element of `TCandidateZbyRank` (candidatez.h): identifier, and the members `Redshift` and `ParentId` of the object pointed to. -/
structure ZCand (K : Type) where
  id : String
  z : K
  parent : String
deriving DecidableEq

/-- `CLineModelPassExtremaResult` (linemodelpassextremaresult.h:49-80): candidates (none: a null pointer), fitted continuum, velocities of
emission and absorption. -/
structure PassRes (K C : Type) where
  cands : List (Option (ZCand K))
  tpl : List C
  elv : List (Option K)
  alv : List (Option K)
deriving DecidableEq

/-- Dereference of the pointer of a candidate. -/
def deref {β : Type} : Option β → Res β
  | none => .ub
  | some c => .ok c

/-- `Redshift(i)`, or the candidate `i` itself. -/
def PassRes.cand (p : PassRes K C) (i : Nat) : Res (ZCand K) := Res.at_ p.cands i >>= deref

/-- `std::vector::resize(n, d)`. -/
def resizeV {β : Type} (d : β) (n : Nat) (l : List β) : List β := l.take n ++ List.replicate (n - l.length) d

/-- `CLineModelPassExtremaResult::Resize` (linemodelpassextremaresult.cpp:48-62); `c0` is a continuum solution by default. -/
def PassRes.resize (c0 : C) (n : Nat) (p : PassRes K C) : PassRes K C :=
  ⟨resizeV none n p.cands, resizeV c0 n p.tpl, resizeV none n p.elv, resizeV none n p.alv⟩

/-- The test of one candidate against those of `a` (linemodelpassextremaresult.cpp:83-91); `thr` is `5e-4`. -/
def nearAny (thr zb : K) : List (Option (ZCand K)) → Res Bool
  | [] => .ok false
  | x :: xs => do
    let c ← deref x
    if |zb - c.z| < thr then .ok true else nearAny thr zb xs

/-- One iteration of the loop of `getUniqueCandidates` (linemodelpassextremaresult.cpp:77-94). -/
def uniqueStep (thr : K) (a b : PassRes K C) (keb : Nat) (u : List Nat) : Res (List Nat) := do
  let c ← b.cand keb
  let d ← nearAny thr c.z a.cands
  .ok (if d then u else u ++ [keb])

/-- `getUniqueCandidates` (linemodelpassextremaresult.cpp:72-96). -/
def unique (thr : K) (a b : PassRes K C) : Res (List Nat) :=
  Res.foldN (uniqueStep thr a b) 0 b.cands.length []

/-- `SetFirstPassCandidates`, one iteration (linemodel.cpp:636-648); `elv` and `alv` read the velocities of a solution. -/
def setStep (elv alv : S → Option K) (r : LmRes K V S C) (zc : List (ZCand K)) (i : Nat) (p : PassRes K C) : Res (PassRes K C) := do
  let c ← Res.at_ zc i
  let idx ← getIndex r.redshifts c.z
  let s ← Res.at_ r.lmSol idx
  let e ← setElt p.elv i (elv s)
  let a ← setElt p.alv i (alv s)
  let t ← Res.at_ r.contSol idx
  let tp ← setElt p.tpl i t
  .ok ⟨p.cands, tp, e, a⟩

/-- `SetFirstPassCandidates` (linemodel.cpp:628-650) on the object `p`. -/
def setFirst (elv alv : S → Option K) (c0 : C) (r : LmRes K V S C) (zc : List (ZCand K)) (p : PassRes K C) : Res (PassRes K C) :=
  let q := p.resize c0 zc.length
  Res.foldN (setStep elv alv r zc) 0 zc.length ⟨zc.map some, q.tpl, q.elv, q.alv⟩

/-- One iteration of the loop of `Combine_firstpass_candidates` (linemodel.cpp:695-722): `keb` the position in the list `u` of the unique
candidates; `name` reads the template name of a continuum solution. -/
def combineStep (name : C → String) (r : LmRes K V S C) (b : PassRes K C) (start : Nat) (u : List Nat) (keb : Nat) (p : PassRes K C) :
    Res (PassRes K C) := do
  let i ← Res.at_ u keb
  let x ← Res.at_ b.cands i
  let cs ← setElt p.cands (start + keb) x
  let eb ← Res.at_ b.elv i
  let e ← setElt p.elv (start + keb) eb
  let ab ← Res.at_ b.alv i
  let a ← setElt p.alv (start + keb) ab
  let c ← b.cand i
  let idx ← getIndex r.redshifts c.z
  let t ← Res.at_ r.contSol idx
  let tp ← setElt p.tpl (start + keb) t
  if name t = "" then .throw .TPL_NAME_EMPTY else .ok ⟨cs, tp, e, a⟩

/-- `Combine_firstpass_candidates` (linemodel.cpp:687-724). -/
def combine (thr : K) (name : C → String) (c0 : C) (r : LmRes K V S C) (a b : PassRes K C) : Res (PassRes K C) := do
  let u ← unique thr a b
  Res.foldN (combineStep name r b a.cands.length u) 0 u.length (a.resize c0 (a.cands.length + u.length))

/-- `buildFirstPassExtremaResults` (linemodel.cpp:653-685): for each candidate the stored solutions at its redshift. -/
def firstExtrema (r : LmRes K V S C) (p : PassRes K C) : Res (List (ZCand K × S × C)) :=
  Res.tab (fun i => p.cand i >>= fun c => getIndex r.redshifts c.z >>= fun idx => Res.at_ r.lmSol idx >>= fun s =>
    Res.at_ r.contSol idx >>= fun t => .ok (c, s, t)) p.cands.length

/-! ## The final results -/

/-- `m != ChiSquare[idx]`, true when one of them is NaN. -/
def differ (a b : Option K) : Bool :=
  match a, b with
  | some x, some y => decide (x ≠ y)
  | _, _ => true

/-- The search of the first pass candidate of identifier `parentId` (linemodel.cpp:895-897): the last one. -/
def findParent (ids : List String) (parent : String) : Option Nat :=
  (List.range ids.length).foldl (fun acc j => if ids[j]? = some parent then some j else acc) none

/-- The check of the parent (linemodel.cpp:893-904). -/
def checkParent (ids : List String) (parent : String) : Res Unit :=
  if parent = "" then .ok ()
  else match findParent ids parent with
    | none => .throw .INTERNAL_ERROR
    | some _ => .ok ()

/-- The constants of `buildExtremaResults`: number of models that can be saved, fitting method, identifiers of the first pass candidates. -/
structure BOpts where
  maxSave : Nat
  method : String
  ids : List String

/-- How the fitting manager is driven: `SetFitContinuum_FitValues` with option 2, `SetVelocityEmission` and `SetVelocityAbsorption`. -/
structure Ops (σ S C : Type) where
  setCont : C → σ → σ
  setVel : S → σ → σ

/-- One candidate of `buildExtremaResults` (linemodel.cpp:885-1087), velocities not fitted by groups. The merits by continuum template are
not copied here. The result saved for the candidate: merit, line solution and continuum solution stored at its redshift. -/
def saveCand {σ : Type} (o : BOpts) (ops : Ops σ S C) (fit : Fit σ K (Option K) S C) (c : ZCand K)
    (x : (σ × LmRes K (Option K) S C) × List (ZCand K × Option K × S × C)) :
    Res ((σ × LmRes K (Option K) S C) × List (ZCand K × Option K × S × C)) := do
  let idx ← getIndex x.1.2.redshifts c.z
  let m ← Res.at_ x.1.2.chi2 idx
  let _ ← checkParent o.ids c.parent
  let t ← Res.at_ x.1.2.contSol idx
  let s ← Res.at_ x.1.2.lmSol idx
  let y ← fitAt (fun st z s t => fit st z s t >>= fun w => .ok (w.1, { w.2 with tplCol := none })) idx
    (ops.setVel s (ops.setCont t x.1.1), x.1.2)
  let m' ← Res.at_ y.2.chi2 idx
  if differ m m' = true ∧ o.method ≠ "random" then .throw .INTERNAL_ERROR
  else
    let s' ← Res.at_ y.2.lmSol idx
    let t' ← Res.at_ y.2.contSol idx
    .ok (y, x.2 ++ [(c, m', s', t')])

/-- `buildExtremaResults` (linemodel.cpp:858-1097). -/
def saveAll {σ : Type} (o : BOpts) (ops : Ops σ S C) (fit : Fit σ K (Option K) S C) (cands : List (ZCand K))
    (st : σ × LmRes K (Option K) S C) : Res ((σ × LmRes K (Option K) S C) × List (ZCand K × Option K × S × C)) :=
  if cands.length > o.maxSave then .throw .INTERNAL_ERROR
  else EltList.foldL (saveCand o ops fit) cands (st, [])

end LmCands
end Amazed
