import Mathlib.Algebra.Order.Field.Basic
import Verif.Model.Template
import Verif.Model.Loop

/-! # Template fitting at one redshift (`src/lib/operator/templatefitting.cpp`, `operator/templatefitting.h`,
`src/lib/operator/templatefittingBase.cpp:207-212`)

Fluxes are elements of a linearly ordered field: rounding, NaN and infinities are not represented, so the tests for an
infinite or NaN sum never fire and the test for an infinite inverse variance fires exactly for a null error. `std::sqrt`
is a parameter `sq`, so that the model can be run on rational numbers. Log messages are not modelled. -/

namespace Amazed
namespace TplFit

variable {K : Type} [Field K] [LinearOrder K]

/-- `TCrossProductResult` (templatefitting.h:61-77), without the photometric sums. -/
structure Sums (K : Type) where
  cross : K
  t : K
  s : K
deriving DecidableEq, Repr

/-- A new `TCrossProductResult` (templatefitting.h:62-64). -/
def Sums.zero : Sums K := ⟨0, 0, 0⟩

/-- `operator+=` (templatefitting.h:69-77). -/
def Sums.add (a b : Sums K) : Sums K := ⟨a.cross + b.cross, a.t + b.t, a.s + b.s⟩

/-- Component-wise difference (templatefitting.cpp:293-295). -/
def Sums.sub (a b : Sums K) : Sums K := ⟨a.cross - b.cross, a.t - b.t, a.s - b.s⟩

/-- `CPriorHelper::SPriorTZE` (priorhelper.h:56-67), the members used here. -/
structure Prior (K : Type) where
  aSigma : K
  aMean : K
  betaA : K
  betaTE : K
  betaZ : K
  precompA : K
  precompTE : K
  precompZ : K
deriving DecidableEq, Repr

/-- `logpriorTZEempty = {}` (templatefitting.cpp:125). -/
def Prior.empty : Prior K := ⟨0, 0, 0, 0, 0, 0, 0, 0⟩

/-- `TFittingResult` (templatefitting.h:79-88), without the photometric chi2. -/
structure Fit (K : Type) where
  chi2 : K
  ampl : K
  amplErr : K
  amplSigma : K
  logprior : K
  sums : Sums K
deriving DecidableEq, Repr

/-- One observation during the fit: its flux, error and additional mask, the first and last sample to use (`m_kStart`,
`m_kEnd`), the rebinned template (`m_templateRebined_bf`) and the sums kept for each dust index
(`m_sumCross_outsideIGM`, …, templatefitting.h:152-154). -/
structure Slot (K : Type) where
  flux : List K
  err : List K
  mask : List Nat
  kStart : Nat
  kEnd : Nat
  t : Tpl.T K
  out : List (Sums K)

/-- State of the loop of `ComputeCrossProducts`: the running sums, the sums kept when leaving the IGM range and whether
they are kept (templatefitting.cpp:235-242). -/
structure Acc (K : Type) where
  sums : Sums K
  igm : Sums K
  saved : Bool

/-- The body of the loop of `ComputeCrossProducts` (templatefitting.cpp:252-286). -/
def crossBody (fast : Bool) (kIgmEnd : Int) (o : Slot K) (j : Nat) (a : Acc K) : Res (Acc K) :=
  let a := if fast = true ∧ a.saved = false ∧ kIgmEnd < j then { a with igm := a.sums, saved := true } else a
  Res.at_ o.mask j >>= fun m =>
  if m ≠ 0 then
    Res.at_ o.err j >>= fun e =>
    Res.at_ o.flux j >>= fun y =>
    Res.at_ o.t.flux j >>= fun x =>
    if e * e = 0 then .throw .INTERNAL_ERROR
    else
      let w := 1 / (e * e)
      .ok { a with sums := ⟨a.sums.cross + y * x * w, a.sums.t + x * x * w, a.sums.s + y * y * w⟩ }
  else .ok a

/-- `GetIgmEndIndex()` (template.h:246-251), with -1 for no sample. -/
def igmEndIdx (t : Tpl.T K) : Res Int :=
  if Tpl.enabled t = false ∨ t.hasIgm = false then .throw .INTERNAL_ERROR
  else .ok (match t.igmEnd with | none => -1 | some e => (e : Int))

/-- `ComputeCrossProducts` (templatefitting.cpp:220-308): the sums and the observation with its updated kept sums. -/
def crossProducts (fast : Bool) (kM kE : Nat) (o : Slot K) : Res (Sums K × Slot K) :=
  (if fast then igmEndIdx o.t else .ok (-1)) >>= fun kIgmEnd =>
  let kEndLoop : Int := if fast = true ∧ 0 < kM then kIgmEnd else (o.kEnd : Int)
  Res.foldN (crossBody fast kIgmEnd o) o.kStart (kEndLoop + 1 - o.kStart).toNat ⟨Sums.zero, Sums.zero, false⟩ >>= fun a =>
  (if fast then
    if kM = 0 then
      if kE < o.out.length then .ok (a.sums, { o with out := o.out.set kE (a.sums.sub a.igm) }) else .ub
    else Res.at_ o.out kE >>= fun p => .ok (a.sums.add p, o)
  else .ok (a.sums, o)) >>= fun r =>
  if r.1.t = 0 then .throw .INTERNAL_ERROR else .ok r

/-- `ComputeAmplitudeAndChi2` (templatefitting.cpp:310-363) with `applyPositiveAndNonNullConstraint`
(templatefittingBase.cpp:207-212). A negative `sumT` gives NaN in the code, reported as `ub`. -/
def amplChi2 (sq : K → K) (thr : K) (p : Prior K) (q : Sums K) : Res (Fit K) :=
  let prior : Bool := decide (0 < p.aSigma) && decide (0 < p.betaA)
  let finish (ampl amplErr amplSigma fit : K) : Fit K :=
    let lp := if prior then
        -2 * p.betaTE * p.precompTE + -2 * p.betaA * p.precompA + -2 * p.betaZ * p.precompZ +
          p.betaA * (ampl - p.aMean) * (ampl - p.aMean) / (p.aSigma * p.aSigma)
      else 0
    ⟨if prior then fit + lp else fit, ampl, amplErr, amplSigma, lp, q⟩
  if q.t = 0 then .ok (finish 0 0 0 q.s)
  else if q.t < 0 then .ub
  else
    let bss2 := p.betaA / (p.aSigma * p.aSigma)
    let ampl0 := if prior then (q.cross + p.aMean * bss2) / (q.t + bss2) else q.cross / q.t
    let err := if prior then sq q.t / (q.t + bss2) else sq (1 / q.t)
    let sigma := ampl0 / err
    let ampl := if sigma < thr then 0 else ampl0
    .ok (finish ampl err sigma (q.s + q.t * ampl * ampl - 2 * ampl * q.cross))

/-- An entry of the three tables of intermediate results: chi2, dust coefficient (`none` for NaN) and IGM index
(templatefitting.h:94-98, 104-106). -/
structure Entry (K : Type) where
  chi2 : K
  ebmv : Option K
  igm : Int
deriving DecidableEq, Repr

/-- The best configuration so far: its fit, dust coefficient and IGM index (templatefitting.cpp:181-190). -/
structure Best (K : Type) where
  fit : Fit K
  ebmv : K
  igm : Int
deriving DecidableEq, Repr

/-- `TFittingIsmIgmResult` (templatefitting.h:90-107): `best` is `none` while the chi2 is the initial infinity; the
tables are indexed by dust, then by IGM. -/
structure Result (K : Type) where
  best : Option (Best K)
  tbl : List (List (Entry K))
deriving DecidableEq, Repr

/-- `for (spcIndex …)` with a state per observation. -/
def mapSlots {β : Type} (f : Slot K → Res (β × Slot K)) : List (Slot K) → Res (List β × List (Slot K))
  | [] => .ok ([], [])
  | o :: os =>
    f o >>= fun r => mapSlots f os >>= fun rs => .ok (r.1 :: rs.1, r.2 :: rs.2)

/-- What the fit is given: the extinction curves, the redshift, the E(B-V) value of a dust index, its options
`opt_dustFitting` and `opt_extinction` (after the test of line 112), `m_option_igmFastProcessing`, the null amplitude
threshold and the lists of indices and priors. -/
structure Opt (K : Type) where
  c : Tpl.Curves K
  z : K
  ebmvValue : Int → K
  dust : Bool
  igm : Bool
  fast : Bool
  thr : K
  meiksin : List Int
  ebmv : List Int
  applyPrior : Bool
  priors : List (Prior K)

/-- `InitIsmIgmConfig` on the rebinned template with the extinction objects of the template
(templatefittingBase.h:101-110, template.cpp:311-319): `hd` and `hi` tell whether the template has them. -/
def initSlot (op : Opt K) (hd hi : Bool) (o : Slot K) : Res (Unit × Slot K) :=
  let t := { o.t with hasDust := o.t.hasDust || hd, hasIgm := o.t.hasIgm || hi }
  let r := Tpl.init op.c t o.kStart o.kEnd op.z
  r.2 >>= fun _ => .ok ((), { o with t := r.1 })

/-- `ApplyMeiksinCoeff(meiksinIdx, spcIndex)` (templatefittingBase.h:112-114). -/
def igmSlot (op : Opt K) (i : Int) (o : Slot K) : Res (Bool × Slot K) :=
  (Tpl.applyIgm op.c o.t i).2 >>= fun b => .ok (b, { o with t := (Tpl.applyIgm op.c o.t i).1 })

/-- `ApplyDustCoeff(kEbmv, spcIndex)` (templatefittingBase.h:116-118). -/
def dustSlot (op : Opt K) (k : Int) (o : Slot K) : Res (Bool × Slot K) :=
  (Tpl.applyDust op.c o.t k).2 >>= fun b => .ok (b, { o with t := (Tpl.applyDust op.c o.t k).1 })

/-- Write `tbl[kE][kM]` (templatefitting.cpp:178-180). -/
def setTbl {α : Type} (tbl : List (List α)) (kE kM : Nat) (v : α) : Res (List (List α)) :=
  Res.at_ tbl kE >>= fun row => if kM < row.length then .ok (tbl.set kE (row.set kM v)) else .ub

/-- One iteration of the loop on the dust coefficients (templatefitting.cpp:157-191). -/
def dustStep (sq : K → K) (op : Opt K) (skip : Bool) (kM : Nat) (mi : Int) (kE : Nat) (os : List (Slot K) × Result K) :
    Res (List (Slot K) × Result K) :=
  Res.at_ op.ebmv kE >>= fun k =>
  let coeff : K := if op.dust then op.ebmvValue k else -1
  (if op.dust then mapSlots (dustSlot op k) os.1 >>= fun r => .ok r.2 else .ok os.1) >>= fun slots =>
  (if op.applyPrior then Res.atZ op.priors k else .ok Prior.empty) >>= fun p =>
  mapSlots (crossProducts op.fast kM kE) slots >>= fun cp =>
  amplChi2 sq op.thr p (cp.1.foldl Sums.add Sums.zero) >>= fun fit =>
  setTbl os.2.tbl kE kM ⟨fit.chi2, some coeff, mi⟩ >>= fun tbl =>
  let better := match os.2.best with | none => true | some b => decide (fit.chi2 < b.fit.chi2)
  .ok (cp.2, ⟨if better then some ⟨fit, coeff, if skip then -1 else mi⟩ else os.2.best, tbl⟩)

/-- The copies of lines 132-142: every entry of a row after the first becomes the first. -/
def copyFirst (row : List (Entry K)) : List (Entry K) :=
  match row with
  | [] => []
  | e :: l => e :: l.map (fun _ => e)

/-- The loop on the IGM indices (templatefitting.cpp:129-193) from iteration `kM`, with `n` iterations left. -/
def igmLoop (sq : K → K) (op : Opt K) (kM : Nat) : Nat → Bool → List (Slot K) × Result K → Res (Result K)
  | 0, _, os => .ok os.2
  | n + 1, skip, os =>
    if 0 < kM ∧ skip = true then .ok { os.2 with tbl := os.2.tbl.map copyFirst }
    else
      Res.at_ op.meiksin kM >>= fun mi =>
      (if op.igm then
        mapSlots (igmSlot op mi) os.1 >>= fun r =>
          .ok (if kM = 0 ∧ r.1.any id then false else skip, r.2)
      else .ok (skip, os.1)) >>= fun s =>
      Res.foldN (dustStep sq op s.1 kM mi) 0 op.ebmv.length (s.2, os.2) >>= fun os' =>
      igmLoop sq op (kM + 1) n s.1 os'

/-- `igmIsInRange` (templatefitting.cpp:211-218): `los` are the first rest wavelengths of the observations,
`RESTLAMBDA_LYA` is 1216 (defaults.h:27). -/
def igmIsInRange (los : List K) : Bool := los.any (fun lo => decide (lo ≤ 1216))

/-- `BasicFit` (templatefitting.cpp:79-201) after `RebinTemplate` of each observation: `los` are the first wavelengths of
the rest frame ranges; `hasDust`, `nEbmv` and `hasIgm` describe the extinction objects of the template, `big` is
`DBL_MAX`. `EbmvList.front()` and `back()` (95-96) are read but not used. -/
def basicFit (sq : K → K) (big : K) (c : Tpl.Curves K) (z : K) (ebmvValue : Int → K) (hasDust : Bool) (nEbmv : Nat)
    (hasIgm : Bool) (thr : K) (optIgm optDust : Bool) (priors : List (Prior K)) (meiksin ebmv : List Int)
    (los : List K) (slots : List (Slot K)) : Res (Result K) :=
  if ebmv = [] then .ub
  else
    let fast : Bool := decide (1 < meiksin.length)
    let applyPrior : Bool := decide (priors ≠ []) && hasDust && decide (priors.length = nEbmv)
    let igm := optIgm && igmIsInRange los
    let op : Opt K := ⟨c, z, ebmvValue, optDust, igm, fast, thr, meiksin, ebmv, applyPrior, priors⟩
    (if optDust || igm then mapSlots (initSlot op hasDust hasIgm) slots >>= fun r => .ok r.2 else .ok slots) >>= fun os =>
    let os := if fast then os.map (fun o => { o with out := List.replicate ebmv.length Sums.zero }) else os
    igmLoop sq op 0 meiksin.length true
      (os, ⟨none, List.replicate ebmv.length (List.replicate meiksin.length ⟨big, none, -1⟩)⟩) >>= fun r =>
    match r.best with
    | none => .throw .INVALID_MERIT_VALUES
    | some _ => .ok r

end TplFit
end Amazed
