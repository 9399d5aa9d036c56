import Mathlib.Analysis.SpecialFunctions.Log.Basic
import Verif.Model.Loop

/-! # `COperatorPdfz` (`src/lib/operator/pdfz.cpp`), `CZPrior` (`src/lib/statistics/zprior.cpp`) and the checks of
`CLogZPdfResult` (`src/lib/operator/logZPdfResult.cpp`)

Floating point numbers are real numbers: rounding, overflow, infinities and NaN are not modelled. A logarithm of a number
that is not positive (an infinity or a NaN in the code) is reported as `ub`, so that every theorem that ends in `ok` shows
that none is taken. Log messages are not modelled. -/

namespace Amazed
namespace Pdfz

/-- `DBL_MAX`. -/
noncomputable def dblMax : ℝ := (2 ^ 53 - 1) * 2 ^ 971

/-- `log` of a number that must be positive. -/
noncomputable def logR (x : ℝ) : Res ℝ := open Classical in if 0 < x then .ok (Real.log x) else .ub

/-- `zstep` of sample `k` in `logSumExpTrick` (pdfz.cpp:277-284). -/
noncomputable def halfStep (z : List ℝ) (k : Nat) : Res ℝ :=
  if k = 0 then
    Res.at_ z (k + 1) >>= fun z1 => Res.at_ z k >>= fun z0 => .ok ((z1 - z0) * 0.5)
  else if k = z.length - 1 then
    Res.at_ z k >>= fun z1 => Res.at_ z (k - 1) >>= fun z0 => .ok ((z1 - z0) * 0.5)
  else
    Res.at_ z (k + 1) >>= fun z1 => Res.at_ z (k - 1) >>= fun z0 => .ok ((z1 - z0) * 0.5)

/-- First loop of `logSumExpTrick` (pdfz.cpp:275-290): the largest `valproba[k] + log(zstep)`. -/
noncomputable def logFactor (v z : List ℝ) : Res ℝ :=
  Res.foldN (fun k f => halfStep z k >>= fun st => logR st >>= fun ls => Res.at_ v k >>= fun vk =>
    .ok (open Classical in if f < vk + ls then vk + ls else f)) 0 z.length (-dblMax)

/-- Second loop of `logSumExpTrick` (pdfz.cpp:292-300); the state is the sum and the previous exponential. -/
noncomputable def expSum (v z : List ℝ) (lf : ℝ) : Res ℝ :=
  Res.at_ v 0 >>= fun v0 =>
  Res.foldN (fun k (s : ℝ × ℝ) => Res.at_ v k >>= fun vk => Res.at_ z k >>= fun zk => Res.at_ z (k - 1) >>= fun zp =>
    .ok (s.1 + (Real.exp (vk - lf) + s.2) / 2 * (zk - zp), Real.exp (vk - lf))) 1 (z.length - 1)
    (0, Real.exp (v0 - lf)) >>= fun s => .ok s.1

/-- `logSumExpTrick` (pdfz.cpp:266-306). -/
noncomputable def logSumExp (v z : List ℝ) : Res ℝ :=
  if z.length < 2 then .throw .INTERNAL_ERROR
  else logFactor v z >>= fun lf => expSum v z lf >>= fun s =>
    open Classical in
    if s = 0 then .throw .INTERNAL_ERROR else logR s >>= fun l => .ok (lf + l)

/-- `Xi2_2withPrior` (pdfz.cpp:342-344). -/
noncomputable def withPrior (merits prior : List ℝ) (ls : ℝ) : Res (List ℝ) :=
  Res.tab (fun i => Res.at_ merits i >>= fun m => Res.at_ prior i >>= fun p => .ok (-0.5 * m + p - ls)) merits.length

/-- `ComputePdf` (pdfz.cpp:317-353): the log PDF and the log evidence. -/
noncomputable def computePdf (merits z : List ℝ) (cst : ℝ) (prior : List ℝ) : Res (List ℝ × ℝ) :=
  if z.length < 1 then .throw .INTERNAL_ERROR
  else if z.length = 1 then .ok ([1], 1)
  else if prior.length ≠ z.length then .throw .INTERNAL_ERROR
  else logSumExp prior z >>= fun ls => withPrior merits prior ls >>= fun x => logSumExp x z >>= fun lse =>
    Res.tab (fun k => Res.at_ x k >>= fun xk => .ok (xk + cst - (cst + lse))) z.length >>= fun pdf =>
    .ok (pdf, cst + lse)

/-- The fields of `ChisquareArray` used to combine (pdfz.h:57-66). -/
structure ChisquareArray where
  redshifts : List ℝ
  chisquares : List (List ℝ)
  zpriors : List (List ℝ)
  modelpriors : List ℝ
  cstLog : ℝ

/-- `validateChisquareArray` (pdfz.cpp:382-408). NaN merits do not exist in the model. -/
def validate (a : ChisquareArray) : Res Unit :=
  if a.chisquares.length ≠ a.zpriors.length then .throw .INTERNAL_ERROR
  else if a.chisquares.length < 1 ∨ a.zpriors.length < 1 ∨ a.redshifts.length < 1 then .throw .INTERNAL_ERROR
  else .ok ()

/-- `logPriorModel` (pdfz.cpp:422-447). -/
noncomputable def logPriorModel (a : ChisquareArray) : Res (List ℝ) :=
  if a.modelpriors = [] then
    Res.tab (fun _ => logR (1 / (a.chisquares.length : ℝ))) a.chisquares.length
  else if a.modelpriors.length ≠ a.chisquares.length then .throw .INTERNAL_ERROR
  else
    Res.tab (fun i => Res.at_ a.modelpriors i >>= fun p => logR p) a.chisquares.length >>= fun lp =>
    open Classical in
    if (lp.map Real.exp).sum > 1.1 ∨ (lp.map Real.exp).sum < 0.9 then .throw .INTERNAL_ERROR else .ok lp

/-- `std::max_element` of a vector that must not be empty (dereferencing `end()` otherwise). -/
noncomputable def maxElement (l : List ℝ) : Res ℝ :=
  match l with
  | [] => .ub
  | a :: as => .ok (as.foldl (fun m x => open Classical in if m < x then x else m) a)

/-- `ComputeEvidenceAll` (pdfz.cpp:365-380): the log of the sum of the evidences. -/
noncomputable def evidenceAll (l : List ℝ) : Res ℝ :=
  maxElement l >>= fun m => logR ((l.map (fun e => Real.exp (e - m))).sum) >>= fun s => .ok (m + s)

/-- Results of `ComputeAllPdfs`. -/
structure AllPdfs where
  logProba : List (List ℝ)
  logEvidenceW : List ℝ
  margEvidence : ℝ

/-- `ComputeAllPdfs` (pdfz.cpp:410-463). -/
noncomputable def computeAllPdfs (a : ChisquareArray) : Res AllPdfs :=
  validate a >>= fun _ => logPriorModel a >>= fun lp =>
  Res.tab (fun km => Res.at_ a.chisquares km >>= fun m => Res.at_ a.zpriors km >>= fun p =>
    computePdf m a.redshifts a.cstLog p) a.chisquares.length >>= fun pdfs =>
  Res.tab (fun km => Res.at_ pdfs km >>= fun p => Res.at_ lp km >>= fun l => .ok (p.2 + l)) pdfs.length >>= fun ev =>
  evidenceAll ev >>= fun me => .ok ⟨pdfs.map Prod.fst, ev, me⟩

/-- The update of one value in `Marginalize` (pdfz.cpp:494-500). -/
noncomputable def logAdd (old add : ℝ) : Res ℝ :=
  logR (Real.exp (old - max add old) + Real.exp (add - max add old)) >>= fun l => .ok (max add old + l)

/-- One template in `Marginalize` (pdfz.cpp:488-502): all values are updated. `nSum` always ends equal to the number of models
(pdfz.cpp:486, 501, 504-510) and is not kept. -/
noncomputable def margStep (zsize : Nat) (logProba : List ℝ) (w : ℝ) (acc : List ℝ) : Res (List ℝ) :=
  Res.tab (fun k => Res.at_ acc k >>= fun old => Res.at_ logProba k >>= fun p => logAdd old (p + w)) zsize

/-- `Marginalize` (pdfz.cpp:465-511), from the initial values set by `createPdfResult` (pdfz.cpp:176-177). Result: the combined
log PDF and `valEvidenceLog`. -/
noncomputable def marginalize (a : ChisquareArray) : Res (List ℝ × ℝ) :=
  computeAllPdfs a >>= fun r =>
  Res.foldN (fun km acc => Res.at_ r.logProba km >>= fun lp => Res.at_ r.logEvidenceW km >>= fun e =>
    margStep a.redshifts.length lp (e - r.margEvidence) acc) 0 a.chisquares.length
    (List.replicate a.redshifts.length (-dblMax)) >>= fun v => .ok (v, r.margEvidence)

/-- `chi2Min` in `BestChi2` (pdfz.cpp:637-643). -/
noncomputable def chi2Min (a : ChisquareArray) : Res (List ℝ) :=
  Res.foldN (fun km acc => Res.at_ a.chisquares km >>= fun m =>
    Res.tab (fun k => Res.at_ m k >>= fun x => Res.at_ acc k >>= fun c =>
      .ok (open Classical in if x < c then x else c)) a.redshifts.length) 0 a.chisquares.length
    (List.replicate a.redshifts.length dblMax)

/-- `BestChi2` (pdfz.cpp:604-651). `GetConstantLogZPrior` of a default `CZPrior` is a list of zeros (zprior.cpp:57-64). -/
noncomputable def bestChi2 (a : ChisquareArray) : Res (List ℝ × ℝ) :=
  computeAllPdfs a >>= fun _ => chi2Min a >>= fun m =>
  computePdf m a.redshifts a.cstLog (List.replicate a.redshifts.length 0)

/-- `validateChisquareArray` then the loop of `BestProba` over the templates (pdfz.cpp:521-545): the largest log PDF, from the
initial values set by `createPdfResult` (pdfz.cpp:176-177). -/
noncomputable def maxProba (a : ChisquareArray) : Res (List ℝ) :=
  Res.foldN (fun km acc => Res.at_ a.chisquares km >>= fun m => Res.at_ a.zpriors km >>= fun p =>
    computePdf m a.redshifts a.cstLog p >>= fun r =>
    Res.tab (fun k => Res.at_ r.1 k >>= fun x => Res.at_ acc k >>= fun c => .ok (max x c)) a.redshifts.length)
    0 a.chisquares.length (List.replicate a.redshifts.length (-dblMax))

/-- Smallest and largest step of the grid (pdfz.cpp:551-557). -/
noncomputable def stepBounds (z : List ℝ) : Res (ℝ × ℝ) :=
  Res.foldN (fun k (s : ℝ × ℝ) => Res.at_ z k >>= fun zk => Res.at_ z (k - 1) >>= fun zp =>
    .ok (min s.1 (zk - zp), max s.2 (zk - zp))) 1 (z.length - 1) (dblMax, -dblMax)

/-- `BestProba` (pdfz.cpp:519-589). `maxi` is kept in the formula as in the code. -/
noncomputable def bestProba (a : ChisquareArray) : Res (List ℝ) :=
  validate a >>= fun _ => maxProba a >>= fun v => stepBounds a.redshifts >>= fun d =>
  open Classical in
  if |d.2 - d.1| / ((d.2 + d.1) / 2) > 0.05 then .throw .INTERNAL_ERROR
  else
    logR ((v.map (fun x => Real.exp (x - v.foldl max (-dblMax)))).sum) >>= fun ls =>
    logR ((d.2 + d.1) / 2) >>= fun lz =>
    .ok (v.map (fun x => x - (v.foldl max (-dblMax) + ls + lz)))

/-- `getSumTrapez` (logZPdfResult.cpp:175-189), after `check_sizes`. -/
noncomputable def sumTrapez (v z : List ℝ) : Res ℝ :=
  if v.length ≠ z.length then .throw .INTERNAL_ERROR
  else if z.length < 2 then .ok 0
  else logSumExp v z >>= fun l => .ok (Real.exp l)

/-- `isPdfValid` (logZPdfResult.cpp:206-227) and `checkPdfSum` (logZPdfResult.cpp:191-204). -/
noncomputable def isPdfValid (v z : List ℝ) : Res Unit :=
  if z.length < 2 then .throw .INTERNAL_ERROR
  else match v with
    | [] => .ub
    | a :: as =>
      open Classical in
      if as.foldl min a = as.foldl max a then .throw .FLAT_ZPDF
      else sumTrapez v z >>= fun s =>
        if |s - 1| > 1e-1 then .throw .PDF_NORMALIZATION_FAILED else .ok ()

/-- `CombinePDF` (pdfz.cpp:181-208): the dispatch on the combination method, then the check of the PDF. -/
noncomputable def combinePdf (opt : String) (a : ChisquareArray) : Res (List ℝ) :=
  if a.chisquares.length = 0 then .throw .INTERNAL_ERROR
  else
    (if opt = "marg" then marginalize a >>= fun r => .ok r.1
     else if opt = "bestChi2" then bestChi2 a >>= fun r => .ok r.1
     else if opt = "bestproba" then bestProba a
     else .throw .INTERNAL_ERROR) >>= fun v =>
    isPdfValid v a.redshifts >>= fun _ => .ok v

/-- `NormalizePrior` (zprior.cpp:50-54). -/
noncomputable def normalizePrior (redshifts p : List ℝ) : Res (List ℝ) :=
  logSumExp p redshifts >>= fun l => .ok (p.map (fun x => x - l))

/-- `if (m_normalizePrior) NormalizePrior(logzPrior)` (zprior.cpp:60-61 and so on). -/
noncomputable def maybeNormalize (norm : Bool) (redshifts p : List ℝ) : Res (List ℝ) :=
  if norm then normalizePrior redshifts p else .ok p

/-- `GetConstantLogZPrior` (zprior.cpp:57-64). -/
noncomputable def constantPrior (norm : Bool) (redshifts : List ℝ) (n : Nat) : Res (List ℝ) :=
  maybeNormalize norm redshifts (List.replicate n 0)

/-- `GetStrongLinePresenceLogZPrior` (zprior.cpp:66-81). -/
noncomputable def linePresencePrior (norm : Bool) (redshifts : List ℝ) (presence : List Bool) (pen : ℝ) : Res (List ℝ) :=
  logR pen >>= fun absent => maybeNormalize norm redshifts (presence.map (fun b => if b then 0 else absent))

/-- `GetNLinesSNRAboveCutLogZPrior` (zprior.cpp:83-100). -/
noncomputable def nLinesPrior (norm : Bool) (redshifts : List ℝ) (nlines : List Int) (pen : ℝ) : Res (List ℝ) :=
  logR pen >>= fun absent => maybeNormalize norm redshifts (nlines.map (fun n => if n ≥ 2 then 0 else absent))

/-- The polynomial of `GetEuclidNhaLogZPrior` (zprior.cpp:112-123). -/
noncomputable def nhaPoly (z : ℝ) : ℝ :=
  -54.7422088727874 * z ^ 6 + 1203.94994364807 * z ^ 5 - 10409.6716744981 * z ^ 4 + 44240.3837462642 * z ^ 3
    - 92914.84430357 * z ^ 2 + 79004.76406 * z - 2288.98457865

/-- The floor of `GetEuclidNhaLogZPrior` (zprior.cpp:125-130; `enable_low_z_flat` is false). `DBL_MIN` is `2 ^ -1022`. -/
noncomputable def nhaValue (z : ℝ) : ℝ := open Classical in if nhaPoly z < 0 then 1 / 2 ^ 1022 else nhaPoly z

/-- `GetEuclidNhaLogZPrior` (zprior.cpp:102-153). -/
noncomputable def nhaPrior (norm : Bool) (redshifts zs : List ℝ) (aCoeff : ℝ) : Res (List ℝ) :=
  open Classical in
  if aCoeff ≤ 0 then .throw .INTERNAL_ERROR
  else
    Res.tab (fun k => Res.at_ zs k >>= fun z => logR (nhaValue z) >>= fun l => .ok (l * aCoeff)) zs.length >>= fun lp =>
    maybeNormalize norm redshifts
      (lp.map (fun x => max (x - lp.foldl max (-dblMax)) (-Real.log 1e12)))

/-- `CombineLogZPrior` (zprior.cpp:163-181). -/
noncomputable def combinePrior (norm : Bool) (redshifts p q : List ℝ) : Res (List ℝ) :=
  if p.length ≠ q.length then .throw .INTERNAL_ERROR
  else Res.tab (fun k => Res.at_ p k >>= fun a => Res.at_ q k >>= fun b => .ok (a + b)) p.length >>= fun r =>
    maybeNormalize norm redshifts r

end Pdfz
end Amazed
