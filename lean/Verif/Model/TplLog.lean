import Verif.Model.TplFit
import Verif.Model.Indexing
import Verif.Model.MedianCont

set_option linter.unusedVariables false

/-! # Template fitting on log-sampled grids (`src/lib/operator/templatefittinglog.cpp`)

Numbers are elements of a linearly ordered field: rounding, NaN and infinities are not represented. A result that is not a number
or not finite in the code (null error, null divisor, logarithm of a non positive number) is reported as `ub`. The square root and
the logarithm are parameters (`sq`, `lg`). The correlation (`EstimateXtY`, modelled in `Verif.Model.Fft`) is a parameter `est` with a
state of type `σ` (the two precomputed transforms), of value `s0` after `InitFFT`. Log messages are not modelled, the reads they make are. -/

namespace Amazed
namespace TplLog

open TplFit (Prior setTbl)

variable {K : Type} [Field K] [LinearOrder K]

/-- The fit of one shift in one configuration (templatefittinglog.cpp:813-832). -/
structure Cell (K : Type) where
  chi2 : K
  amp : K
  ampErr : K
  ampSigma : K
  dtm : K
  mtm : K
deriving DecidableEq, Repr

/-- The amplitude and chi2 of one shift (templatefittinglog.cpp:817-832), with `applyPositiveAndNonNullConstraint`
(templatefittingBase.cpp:207-212). -/
def cell (sq : K → K) (thr dtd dtm mtm : K) : Res (Cell K) :=
  if mtm = 0 then .ok ⟨dtd, 0, 0, 0, dtm, mtm⟩
  else if mtm < 0 then .ub
  else
    let err := sq (1 / mtm)
    let sigma := dtm / mtm / err
    let a := if sigma < thr then 0 else dtm / mtm
    .ok ⟨dtd - 2 * dtm * a + mtm * a * a, a, err, sigma, dtm, mtm⟩

/-- The cells of all the shifts; the two vectors have the same size (templatefittinglog.cpp:805-832). -/
def cells (sq : K → K) (thr dtd : K) : List K → List K → Res (List (Cell K))
  | [], _ => .ok []
  | _ :: _, [] => .ub
  | d :: ds, m :: ms => cell sq thr dtd d m >>= fun c => cells sq thr dtd ds ms >>= fun l => .ok (c :: l)

/-- The best fit of one redshift (templatefittinglog.cpp:731-740). -/
structure Best (K : Type) where
  chi2 : K
  amp : K
  ampErr : K
  ampSigma : K
  dtm : K
  mtm : K
  snr : K
  ebmv : K
  igm : Int
  logprior : K
deriving DecidableEq, Repr

/-- What is kept for one shift: the best fit (`none` while the chi2 is `DBL_MAX`) and the chi2 of each configuration, by dust then by
IGM (`none` is `DBL_MAX`; templatefittinglog.cpp:730-755). -/
structure Row (K : Type) where
  best : Option (Best K)
  tbl : List (List (Option K))
deriving DecidableEq, Repr

/-- What the fit is given: the wavelengths and fluxes of the spectrum, the extinction curves, the E(B-V) value of a dust index,
`m_enableIGM`, `m_enableISM`, the null amplitude threshold and the two lists of indices. -/
structure Ctx (K : Type) where
  spcAxis : List K
  flux : List K
  c : Tpl.Curves K
  ebmvValue : Int → K
  igm : Bool
  ism : Bool
  thr : K
  meiksin : List Int
  ebmv : List Int

/-- Write `intermediateChi2[k][kISM][koigm]` for the `m` indices from `a` (templatefittinglog.cpp:839-843). -/
def copyIgm (tbl : List (List (Option K))) (kIsm : Nat) (v : Option K) (a m : Nat) : Res (List (List (Option K))) :=
  Res.foldN (fun j tbl => setTbl tbl kIsm j v) a m tbl

/-- `bestFitSNR` (templatefittinglog.cpp:852-855). -/
def snrOf (sq : K → K) (c : Cell K) : K := if 0 < c.mtm then c.dtm / sq c.mtm else -1

/-- One shift of the second loop (templatefittinglog.cpp:834-862); `over` is `overrideNIGMTobesaved`. -/
def updRow (sq : K → K) (over : Option Nat) (ebmv : K) (igm : Int) (kIgm kIsm : Nat) (c : Cell K) (r : Row K) : Res (Row K) :=
  setTbl r.tbl kIsm kIgm (some c.chi2) >>= fun tbl =>
  (match over with
    | some m => if kIgm = 0 then copyIgm tbl kIsm (some c.chi2) 1 (m - 1) else .ok tbl
    | none => .ok tbl) >>= fun tbl =>
  let better := match r.best with | none => true | some b => decide (c.chi2 < b.chi2)
  .ok ⟨if better then some ⟨c.chi2, c.amp, c.ampErr, c.ampSigma, c.dtm, c.mtm, snrOf sq c, ebmv, igm, 0⟩ else r.best, tbl⟩

/-- The second loop over the shifts (templatefittinglog.cpp:834-863). -/
def updRows (sq : K → K) (over : Option Nat) (ebmv : K) (igm : Int) (kIgm kIsm : Nat) : List (Cell K) → List (Row K) → Res (List (Row K))
  | [], rs => .ok rs
  | _ :: _, [] => .ub
  | c :: cs, r :: rs =>
    updRow sq over ebmv igm kIgm kIsm c r >>= fun r' => updRows sq over ebmv igm kIgm kIsm cs rs >>= fun rs' => .ok (r' :: rs')

/-- State of the loops of `FitRangez`: the template, the precomputed transforms, the rows. -/
structure St (K σ : Type) where
  t : Tpl.T K
  fft : σ
  rows : List (Row K)

/-- The part `[kstart, kend]` of the corrected template flux (templatefittinglog.cpp:780-784). -/
def crop (l : List K) (a b : Nat) : Res (List K) := if b < l.length then .ok ((l.take (b + 1)).drop a) else .ub

/-- One range of the fit: `m_nPaddedSamples`, the ends of the range of the template, the spectrum over its squared error and the
inverse squared errors, the sum `dtd`, whether the IGM is used (`enableIGM`) and `overrideNIGMTobesaved`. -/
structure Rng (K : Type) where
  nPad : Nat
  kstart : Nat
  kend : Nat
  x0 : List K
  x1 : List K
  dtd : K
  igm : Bool
  over : Option Nat

/-- One turn of the loop over the dust coefficients (templatefittinglog.cpp:766-872), `mi` being the IGM index. -/
def ismStep {σ : Type} (sq : K → K) (est : Nat → σ → List K → List K → ℤ → Res (List K × σ)) (x : Ctx K) (g : Rng K) (kIgm : Nat)
    (mi : Int) (kIsm : Nat) (st : St K σ) : Res (St K σ) :=
  Res.at_ x.ebmv kIsm >>= fun kd =>
  (if x.ism then (Tpl.applyDust x.c st.t kd).2 >>= fun _ => .ok (Tpl.applyDust x.c st.t kd).1 else .ok st.t) >>= fun t =>
  crop t.flux g.kstart g.kend >>= fun y =>
  est g.nPad st.fft g.x0 y 0 >>= fun d =>
  est g.nPad d.2 g.x1 (y.map fun v => v * v) 1 >>= fun m =>
  if m.1.length ≠ d.1.length then .throw .INTERNAL_ERROR
  else
    cells sq x.thr g.dtd d.1 m.1 >>= fun cs =>
    updRows sq g.over (if x.ism then x.ebmvValue kd else -1) (if g.igm then mi else -1) kIgm kIsm cs st.rows >>= fun rows =>
    .ok ⟨t, m.2, rows⟩

/-- One turn of the loop over the IGM indices (templatefittinglog.cpp:755-873). -/
def igmStep {σ : Type} (sq : K → K) (est : Nat → σ → List K → List K → ℤ → Res (List K × σ)) (x : Ctx K) (g : Rng K) (kIgm : Nat)
    (st : St K σ) : Res (St K σ) :=
  Res.at_ x.meiksin kIgm >>= fun mi =>
  (if g.igm then (Tpl.applyIgm x.c st.t mi).2 >>= fun _ => .ok (Tpl.applyIgm x.c st.t mi).1 else .ok st.t) >>= fun t =>
  Res.foldN (ismStep sq est x g kIgm mi) 0 x.ebmv.length { st with t := t }

/-- `relative_zgrid_error` of one shift (templatefittinglog.cpp:693-701). -/
def zError (l0 t z : K) : Res K :=
  if t = 0 ∨ 1 + (l0 - t) / t = 0 then .ub else .ok (|z - (l0 - t) / t| / (1 + (l0 - t) / t))

/-- The loop of the check of the redshift grid (templatefittinglog.cpp:693-703): the largest error. `zv` is the reversed list of the
redshifts, read before its size is compared. -/
def zErrors (l0 : K) (axis zv : List K) (kstart n : Nat) : Res K :=
  Res.foldN (fun t m => Res.at_ axis (t + kstart) >>= fun tl => Res.at_ zv t >>= fun z => zError l0 tl z >>= fun e =>
    .ok (if m < e then e else m)) 0 n 0

/-- `overrideNIGMTobesaved` (templatefittinglog.cpp:719-728; `RESTLAMBDA_LYA` is 1216, defaults.h:27). -/
def override (lo : K) (nIgm : Nat) : Option Nat := if 1216 < lo ∧ 1 < nIgm then some nIgm else none

/-- The rows before the loops (templatefittinglog.cpp:731-758). -/
def emptyRow (nIsm nIgm : Nat) : Row K := ⟨none, List.replicate nIsm (List.replicate nIgm none)⟩

/-- The number of turns of the loop over the IGM indices (templatefittinglog.cpp:719-728). -/
def nLoops (x : Ctx K) (g : Rng K) : Nat := match g.over with | some _ => 1 | none => x.meiksin.length

/-- The loops of `FitRangez` and the reversal (templatefittinglog.cpp:760-905) once the redshift grid is checked. -/
def fitLoops {σ : Type} (sq : K → K) (est : Nat → σ → List K → List K → ℤ → Res (List K × σ)) (s0 : σ) (x : Ctx K) (g : Rng K) (z : K)
    (nShifts : Nat) (t : Tpl.T K) : Res (List (Row K) × Tpl.T K) :=
  (if x.igm || x.ism then (Tpl.init x.c t g.kstart g.kend z).2 >>= fun _ => .ok (Tpl.init x.c t g.kstart g.kend z).1 else .ok t) >>= fun t =>
  Res.foldN (igmStep sq est x g) 0 (nLoops x g)
    ⟨t, s0, List.replicate nShifts (emptyRow x.ebmv.length x.meiksin.length)⟩ >>= fun st =>
  .ok (st.rows.reverse, st.t)

/-- `FitRangez` (templatefittinglog.cpp:637-918): the rows of the redshifts `zs` and the template. -/
def fitRangez {σ : Type} (sq : K → K) (est : Nat → σ → List K → List K → ℤ → Res (List K × σ)) (s0 : σ) (x : Ctx K) (inv : List K)
    (dtd : K) (rg : Int × Int) (zs : List K) (t : Tpl.T K) : Res (List (Row K) × Tpl.T K) :=
  if rg.1 < 0 ∨ rg.2 < 0 then .ub
  else
  let kstart := rg.1.toNat
  let kend := rg.2.toNat
  let nTpl : Int := rg.2 - rg.1 + 1
  let nSpc := x.spcAxis.length
  Res.tab (fun j => Res.at_ x.flux j >>= fun f => Res.at_ inv j >>= fun i => .ok (f * i)) nSpc >>= fun x0 =>
  Res.at_ zs 0 >>= fun z =>
  Res.at_ x.spcAxis 0 >>= fun l0 =>
  Res.at_ t.axis kstart >>= fun lo =>
  Res.at_ t.axis kend >>= fun _ =>
  let nShifts : Int := nTpl - nSpc + 1
  if nShifts < 0 then .throw .STD_LENGTH_ERROR
  else
  zErrors l0 t.axis zs.reverse kstart nShifts.toNat >>= fun e =>
  if 5 / 10000000 < e then .throw .INTERNAL_ERROR
  else if zs.length ≠ nShifts.toNat then .throw .INTERNAL_ERROR
  else
  let over := override lo x.meiksin.length
  let g : Rng K := ⟨(nTpl.toNat + 1) / 2 * 2, kstart, kend, x0, inv, dtd, x.igm && over.isNone, over⟩
  fitLoops sq est s0 x g z nShifts.toNat t

/-- `GetIGMStartingRedshiftValue` (templatefittingBase.cpp:203-205). -/
def igmStart (l0 : K) : K := l0 / 1216 - 1

/-- `getClosestLowerIndex` into an index that is -1 before the call. -/
def lowerIdx (zs : List K) (v : K) : Res Int :=
  getClosestLowerIndex zs v >>= fun o => .ok (match o with | some i => (i : Int) | none => -1)

/-- The loop over the IGM bins (templatefittinglog.cpp:391-399). -/
def binSplits (zs : List K) (zmin front back : K) : List K → Res (List Int)
  | [] => .ok []
  | z :: l =>
    if z ≤ zmin ∨ z ≤ front then binSplits zs zmin front back l
    else if back ≤ z then .ok []
    else lowerIdx zs z >>= fun i => binSplits zs zmin front back l >>= fun r => .ok (i :: r)

/-- `zsplit` (templatefittinglog.cpp:376-400). `pop_back` of an empty list of bins is undefined. -/
def zSplits (zs bins : List K) (l0 front back : K) : Res (List Int) :=
  (if front < igmStart l0 ∧ igmStart l0 < back then lowerIdx zs (igmStart l0) >>= fun i => .ok [i] else .ok []) >>= fun a =>
  (if igmStart l0 < back then if bins = [] then .ub else binSplits zs (igmStart l0) front back bins.dropLast else .ok []) >>= fun b =>
  .ok (a ++ b)

/-- The ranges of indices between the splits (templatefittinglog.cpp:411-418). -/
def mkRanges (n : Nat) (izmin : Int) : List Int → List (Int × Int)
  | [] => [(izmin, (n : Int) - 1)]
  | m :: l => (izmin, m) :: mkRanges n (m + 1) l

/-- `FindZRanges` (templatefittinglog.cpp:371-428); `bins` are the redshift bins of the IGM curves. -/
def findZRanges (igm : Bool) (spcAxis bins zs : List K) : Res (List (Int × Int)) :=
  Res.at_ zs 0 >>= fun front =>
  Res.at_ zs (zs.length - 1) >>= fun back =>
  (if igm then Res.at_ spcAxis 0 >>= fun l0 => zSplits zs bins l0 front back else .ok []) >>= fun sp =>
  .ok (mkRanges zs.length 0 sp)

/-- The number of steps of the grid between two numbers. -/
def steps (lg : K → K) (num den step : K) : Res K :=
  if den = 0 ∨ num / den ≤ 0 ∨ step = 0 then .ub else .ok (lg (num / den) / step)

/-- `FindTplSpectralIndex` (templatefittinglog.cpp:938-985): `step` is the step of the template grid, `zb` and `ze` the ends of the
redshift range. -/
def findTplIndex [FloorRing K] (lg : K → K) (spcAxis tplAxis : List K) (step zb ze : K) : Res (Int × Int) :=
  if spcAxis.length < 2 ∨ tplAxis.length < 2 then .ub
  else
  Res.at_ spcAxis 0 >>= fun s0 =>
  Res.at_ spcAxis (spcAxis.length - 1) >>= fun s1 =>
  Res.at_ tplAxis 0 >>= fun t0 =>
  Res.at_ tplAxis (tplAxis.length - 1) >>= fun t1 =>
  if t0 = 0 ∨ t1 = 0 then .ub
  else
  let zmax := (s0 - t0) / t0
  let zmin := (s1 - t1) / t1
  steps lg (zmax + 1) (ze + 1) step >>= fun left =>
  steps lg (zb + 1) (zmin + 1) step >>= fun right =>
  let imin := MedCont.cround left
  let imax := (tplAxis.length : Int) - 1 - MedCont.cround right
  if (tplAxis.length : Int) ≤ imax ∨ imin < 0 then .throw .INTERNAL_ERROR
  else if imax < imin then .throw .INTERNAL_ERROR
  else .ok (imin, imax)

/-- The constraint of the prior on the amplitude of one redshift (templatefittinglog.cpp:510-585). -/
def priorUpd (sq : K → K) (thr dtd : K) (p : Prior K) (b : Best K) : Res (Best K) :=
  let lp := -2 * p.betaTE * p.precompTE + -2 * p.betaA * p.precompA + -2 * p.betaZ * p.precompZ
  if 0 < p.aSigma ∧ 0 < p.aMean then
    if b.mtm ≤ 0 then .ub
    else
      let bss2 := p.betaA / (p.aSigma * p.aSigma)
      let a0 := if 0 < p.betaA then (b.dtm + p.aMean * bss2) / (b.mtm + bss2) else b.dtm / b.mtm
      let err := if 0 < p.betaA then sq b.mtm / (b.mtm + bss2) else sq (1 / b.mtm)
      let sigma := a0 / err
      let a := if sigma < thr then 0 else a0
      let lpa := p.betaA * (a - p.aMean) * (a - p.aMean) / (p.aSigma * p.aSigma)
      .ok { b with amp := a, ampErr := err, ampSigma := sigma, chi2 := dtd + b.mtm * a * a - 2 * a * b.dtm + (lp + lpa), logprior := lp + lpa }
  else .ok { b with chi2 := b.chi2 + lp, logprior := lp }

/-- The copy of one redshift into the result, with its prior if there are any (templatefittinglog.cpp:497-605). `ebmvIndex` is
`GetEbmvIndex`. -/
def copyRow (sq : K → K) (thr dtd : K) (ebmvIndex : K → Res Int) (priors : List (List (Prior K))) (i : Nat) (r : Row K) : Res (Row K) :=
  if priors = [] then .ok r
  else
    match r.best with
    | none => .ub
    | some b =>
      (if b.ebmv ≠ -1 then ebmvIndex b.ebmv else .ok 0) >>= fun k =>
      Res.at_ priors i >>= fun ps => Res.atZ ps k >>= fun p =>
      priorUpd sq thr dtd p b >>= fun b' => .ok { r with best := some b' }

/-- The loop of the copies (templatefittinglog.cpp:497-612), from the index `i` of the result. -/
def copyRows (sq : K → K) (thr dtd : K) (ebmvIndex : K → Res Int) (priors : List (List (Prior K))) (i : Nat) :
    List (Row K) → List (Option (Row K)) → Res (List (Option (Row K)))
  | [], out => .ok out
  | r :: rs, out =>
    if out.length ≤ i then .throw .INTERNAL_ERROR
    else copyRow sq thr dtd ebmvIndex priors i r >>= fun r' => copyRows sq thr dtd ebmvIndex priors (i + 1) rs (out.set i (some r'))

/-- The sums over the spectrum that do not depend on the redshift (templatefittinglog.cpp:454-460): the inverse squared errors and `dtd`. -/
def spcSums (flux err : List K) : Res (List K × K) :=
  Res.tab (fun j => Res.at_ err j >>= fun e => if e * e = 0 then .ub else .ok (1 / (e * e))) err.length >>= fun inv =>
  Res.foldN (fun j s => Res.at_ flux j >>= fun f => Res.at_ inv j >>= fun i => .ok (s + f * f * i)) 0 err.length 0 >>= fun dtd =>
  .ok (inv, dtd)

/-- One redshift range (templatefittinglog.cpp:462-614). -/
def allzStep [FloorRing K] {σ : Type} (sq lg : K → K) (est : Nat → σ → List K → List K → ℤ → Res (List K × σ)) (s0 : σ) (x : Ctx K)
    (step : K) (inv : List K) (dtd : K) (ebmvIndex : K → Res Int) (priors : List (List (Prior K))) (zs : List K) (rg : Int × Int)
    (st : List (Option (Row K)) × Tpl.T K) : Res (List (Option (Row K)) × Tpl.T K) :=
  Res.atZ zs rg.1 >>= fun zb =>
  Res.atZ zs rg.2 >>= fun ze =>
  if rg.2 + 1 < rg.1 then .ub
  else
  let sub := if x.igm = true ∧ 1 < zs.length then (zs.take (rg.2 + 1).toNat).drop rg.1.toNat else zs
  findTplIndex lg x.spcAxis st.2.axis step zb ze >>= fun il =>
  fitRangez sq est s0 x inv dtd il sub st.2 >>= fun r =>
  copyRows sq x.thr dtd ebmvIndex priors rg.1.toNat r.1 st.1 >>= fun out =>
  .ok (out, r.2)

/-- The loop over the ranges. -/
def allzLoop [FloorRing K] {σ : Type} (sq lg : K → K) (est : Nat → σ → List K → List K → ℤ → Res (List K × σ)) (s0 : σ) (x : Ctx K)
    (step : K) (inv : List K) (dtd : K) (ebmvIndex : K → Res Int) (priors : List (List (Prior K))) (zs : List K) :
    List (Int × Int) → List (Option (Row K)) × Tpl.T K → Res (List (Option (Row K)) × Tpl.T K)
  | [], st => .ok st
  | rg :: rgs, st => allzStep sq lg est s0 x step inv dtd ebmvIndex priors zs rg st >>= fun st' =>
      allzLoop sq lg est s0 x step inv dtd ebmvIndex priors zs rgs st'

/-- `FitAllz` (templatefittinglog.cpp:441-620): the rows of the redshifts, `none` for one that is not written. -/
def fitAllz [FloorRing K] {σ : Type} (sq lg : K → K) (est : Nat → σ → List K → List K → ℤ → Res (List K × σ)) (s0 : σ) (x : Ctx K)
    (step : K) (err bins : List K) (ebmvIndex : K → Res Int) (priors : List (List (Prior K))) (zs : List K) (t : Tpl.T K) :
    Res (List (Option (Row K)) × Tpl.T K) :=
  findZRanges x.igm x.spcAxis bins zs >>= fun rgs =>
  spcSums x.flux err >>= fun q =>
  allzLoop sq lg est s0 x step q.1 q.2 ebmvIndex priors zs rgs (List.replicate zs.length none, t)

end TplLog
end Amazed
