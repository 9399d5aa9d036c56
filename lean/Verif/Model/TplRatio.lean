import Verif.Model.Amp
import Mathlib.Algebra.Order.Monoid.Unbundled.WithTop

set_option linter.unusedVariables false

/-! # The fit of the line model over continua and line ratio catalogs

`src/lib/linemodel/linemodelfitting.cpp` (`fit`), `src/lib/linemodel/tplratiomanager.cpp`,
`src/lib/linemodel/tplcorrmanager.cpp` and `src/lib/line/catalogsTplRatio.cpp`.

What the fit of the amplitudes does with continuum `k` and ratio catalog `r` is a parameter: its merit (a number or `+∞`; a NaN
is an exception, lineratiomanager.cpp:287) and the prior of the lines. Where the code copies or keeps fit results (amplitudes,
errors, sums, profile parameters), the model keeps the pair `(k, r)` of the fit they come from. -/

namespace Amazed
namespace TplRatio

variable {K : Type} [Field K] [LinearOrder K] [IsStrictOrderedRing K]

/-- Where fit results come from: the continuum and the ratio catalog. -/
abbrev Src := Nat × Nat

/-- What `fit` depends on. `ratio`: the line ratio type is `tplRatio` (otherwise `rules`); `nCont` is `nContinuum`; `nRatio` the
number of catalogs (1 for `rules`); `ismOff` is `m_forcedisableTplratioISMfit`, `ism r` the dust index of catalog `r`;
`tplfit`: the continuum is a fitted template; `svdlc`: the fitting method is `svdlc`. -/
structure Cfg (K : Type) where
  ratio : Bool
  nCont : Nat
  nRatio : Nat
  ismOff : Bool
  ism : Nat → Int
  tplfit : Bool
  svdlc : Bool
  merit : Nat → Nat → Res (WithTop K)
  prior : Nat → Nat → K

/-- The entry of a catalog in the tables of `CTplratioManager` (tplratiomanager.h): merit, prior, and where the other
results come from (`none`: an earlier call of `fit`, or NaN). -/
structure Entry (K : Type) where
  merit : WithTop K
  prior : K
  src : Option Src
deriving DecidableEq

/-- The variables of `fit` (linemodelfitting.cpp:366-411), the tables, the origin of the amplitudes held by the elements and the
continuum loaded in the model. `sol`: the solutions returned by reference (`none`: untouched). -/
structure St (K : Type) where
  best : WithTop K
  bestPrior : K
  cont : Option Nat
  ratio : Option Nat
  sol : Option Src
  table : List (Entry K)
  elts : Option Src
  loaded : Option Nat
deriving DecidableEq

/-- `prepareFit` and `initMerit` (tplratiomanager.cpp:73-76, 90-94): merits and priors are reset, the other tables keep what they hold. -/
def prepare (c : Cfg K) (elts : Option Src) : St K :=
  ⟨⊤, 0, none, none, none, List.replicate c.nRatio ⟨⊤, 0, none⟩, elts, none⟩

/-- The test of `CTplratioManager::init` (tplratiomanager.cpp:119-121). -/
def skips (c : Cfg K) (r : Nat) : Bool := c.ratio && c.ismOff && decide (0 < r) && decide (0 < c.ism r)

/-- `duplicateTplratioResult` (tplratiomanager.cpp:136-160). -/
def duplicate (r : Nat) (s : St K) : Res (St K) :=
  if r = 0 then .ub else Res.at_ s.table (r - 1) >>= fun e => .ok { s with table := s.table.set r e }

/-- `computeMerit` (tplratiomanager.cpp:527-547; rulesmanager.cpp:56-60): the better fit of a catalog replaces its entry. -/
def record (c : Cfg K) (k r : Nat) (m : WithTop K) (s : St K) : Res (St K) :=
  if c.ratio then
    Res.at_ s.table r >>= fun e =>
    if m + (c.prior k r : WithTop K) < e.merit + (e.prior : WithTop K) then
      .ok { s with table := s.table.set r ⟨m, c.prior k r, some (k, r)⟩ }
    else .ok s
  else .ok s

/-- One pass of the inner loop (linemodelfitting.cpp:387-412); `_meritprior` is 0 at 381 and never assigned. -/
def step (c : Cfg K) (k r : Nat) (s : St K) : Res (St K) :=
  if skips c r then duplicate r s
  else
    c.merit k r >>= fun m =>
    record c k r m { s with elts := some (k, r) } >>= fun s =>
    let p : K := 0
    if s.best + (s.bestPrior : WithTop K) > m + (p : WithTop K) then
      .ok { s with best := m, bestPrior := p, cont := some k, sol := some (k, r), ratio := if c.ratio then some r else s.ratio }
    else .ok s

/-- The two loops (linemodelfitting.cpp:378-413). -/
def loops (c : Cfg K) (s : St K) : Res (St K) :=
  Res.foldN (fun k s => Res.foldN (step c k) 0 c.nRatio { s with loaded := some k }) 0 c.nCont s

/-- `resetToBestRatio` (tplratiomanager.cpp:549-589): without a saved catalog `SetNominalAmplitudes(-1)` throws (256-258). -/
def resetBest (s : St K) : Res (St K) :=
  match s.ratio with
  | none => .throw .INTERNAL_ERROR
  | some r => Res.at_ s.table r >>= fun e => .ok { s with elts := e.src }

/-- `fit` (linemodelfitting.cpp:352-432): `logging` is `enableLogging`. `GetModelSolution` at the end reads the elements, the continuum
solution is that of the loaded continuum (`finalSol`). -/
def fit (c : Cfg K) (logging : Bool) (elts : Option Src) : Res (St K) :=
  loops c (prepare c elts) >>= fun s =>
  if logging then
    let s := if c.tplfit && !c.svdlc && decide (1 < c.nCont) then { s with loaded := s.cont } else s
    if c.ratio then resetBest s >>= fun s => .ok { s with sol := s.elts } else .ok s
  else .ok s

/-! ## Amplitudes of a ratio catalog -/

/-- What `updateTplratioResults` keeps of an element (tplratiomanager.cpp:450-459): amplitude, error, and whether the sums were kept. -/
structure Kept (K : Type) where
  amp : Option K
  err : Option K
  sums : Bool
deriving DecidableEq

/-- The loop on the lines of an element (tplratiomanager.cpp:467-503) from line `i`, `n` lines left; `o` are the flags over all spectra. -/
def keepFrom (e : Amp.Elt K) (i : Nat) : Nat → Res (Kept K)
  | 0 => .ok ⟨some 0, none, false⟩
  | n + 1 =>
    Res.at_ e.fa i >>= fun a => Res.at_ e.gOutsideLine i >>= fun o =>
    if Amp.vGt a (some 0) = true ∧ o = false then
      Res.at_ e.fastd i >>= fun s => Res.at_ e.nominal i >>= fun nom =>
      Amp.vDiv a (some nom) >>= fun A => Amp.vDiv s (some nom) >>= fun S => .ok ⟨A, S, true⟩
    else keepFrom e (i + 1) n

/-- `updateTplratioResults` for an element (tplratiomanager.cpp:463-508). -/
def keep (e : Amp.Elt K) : Res (Kept K) := keepFrom e 0 e.lines.length

/-- `SetNominalAmplitudes` for an element (tplratiomanager.cpp:259-271): `amps` are those of the catalog. -/
def setNominal (amps : List K) (e : Amp.Elt K) : Res (Amp.Elt K) :=
  Res.tab (fun i => Res.at_ amps i) e.lines.length >>= fun l => .ok { e with nominal := l }

/-- `resetToBestRatio` for an element (tplratiomanager.cpp:552, 561-566). -/
def restore (amps : List K) (k : Kept K) (e : Amp.Elt K) : Res (Amp.Elt K) :=
  setNominal amps e >>= fun e => Amp.setAmplitude e k.amp k.err

/-- A line of a ratio catalog: identifier, wavelength, nominal amplitude. -/
structure CatLine (K : Type) where
  id : Int
  pos : K
  nom : K
deriving DecidableEq

/-- `catalog.GetList().at(id)`: the first entry with the identifier (a map has one at most). -/
def lineAt (cat : List (CatLine K)) (id : Int) : Res (CatLine K) :=
  match cat.find? (fun l => decide (l.id = id)) with
  | some l => .ok l
  | none => .throw .STD_OUT_OF_RANGE

/-- The nominal amplitude of a line in a catalog (catalogsTplRatio.cpp:97-110): `dust` is `GetDustCoeff` with the index of the catalog;
`none`: no dust correction loaded (a null pointer is dereferenced). -/
def corrAmp (ismFit emission : Bool) (dust : Option (K → Res K)) (cat : List (CatLine K)) (id : Int) : Res K :=
  lineAt cat id >>= fun l =>
  if ismFit && emission then
    match dust with
    | none => .ub
    | some d => d l.pos >>= fun x => .ok (l.nom * x)
  else .ok l.nom

/-- `InitLineCorrespondingAmplitudes` for one catalog and one element (catalogsTplRatio.cpp:88-113); `ids` are the identifiers of its lines. -/
def corrAmps (ismFit emission : Bool) (dust : Option (K → Res K)) (cat : List (CatLine K)) (ids : List Int) : Res (List K) :=
  Res.tab (fun i => Res.at_ ids i >>= fun id => corrAmp ismFit emission dust cat id) ids.length

/-! ## Correction of fitted amplitudes (`tplCorr`) -/

/-- The sums of `computeFitValue` (catalogsTplRatio.cpp:252-265): cross product and norm; a null error is undefined. -/
def fitSums : List K → List K → List K → Res (K × K)
  | [], _, _ => .ok (0, 0)
  | a :: as, e :: es, t :: ts => if e = 0 then .ub else fitSums as es ts >>= fun s => .ok (s.1 + a * t * (1 / (e * e)), s.2 + t * t * (1 / (e * e)))
  | _, _, _ => .ub

/-- The chi2 (catalogsTplRatio.cpp:271-279) for amplitude `A`. -/
def fitChi (A : K) : List K → List K → List K → K
  | a :: as, e :: es, t :: ts => (a - A * t) * (a - A * t) * (1 / (e * e)) + fitChi A as es ts
  | _, _, _ => 0

/-- `computeFitValue` (catalogsTplRatio.cpp:229-285): the chi2 and the corrected amplitudes, or -1 and none. Sums are exact, their order does not matter. -/
def fitValue (amps errs tpl : List K) : Res (K × Option (List K)) :=
  fitSums amps errs tpl >>= fun s =>
  if s.1 = 0 ∨ s.2 = 0 then .ok (-1, none)
  else
    let A := s.1 / s.2
    .ok (fitChi A amps errs tpl, some (tpl.map fun t => t * A))

/-- The loop on the catalogs of `GetBestFit` (catalogsTplRatio.cpp:184-197): index, chi2 and amplitudes of the best, from catalog `i`. -/
def bestFrom (amps errs : List K) : Nat → List (List K) → Option (Nat × K × List K) → Res (Option (Nat × K × List K))
  | _, [], b => .ok b
  | i, t :: ts, b =>
    fitValue amps errs t >>= fun f => bestFrom amps errs (i + 1) ts (bestOf i f b)
where
  /-- The test (catalogsTplRatio.cpp:192-196); `fit > 0` holds only when `computeFitValue` filled the amplitudes. -/
  bestOf (i : Nat) (f : K × Option (List K)) (b : Option (Nat × K × List K)) : Option (Nat × K × List K) :=
    match f.2 with
    | none => b
    | some l => if f.1 > 0 then
        match b with
        | none => some (i, f.1, l)
        | some b' => if f.1 < b'.2.1 then some (i, f.1, l) else some b'
      else b

/-- The lines kept (catalogsTplRatio.cpp:174-182). -/
def maskAt (a e : K) : Bool := !(decide (a < 0) || decide (e ≤ 0))

/-- `GetBestFit` (catalogsTplRatio.cpp:163-211) with the nominal amplitudes `tpls` of the valid lines in each catalog: the vector of
corrected amplitudes is cleared (201), then written at the index of each line kept (207-208). -/
def getBestFit (amps errs : List K) (tpls : List (List K)) : Res (Option (Nat × K)) :=
  if amps = [] then .ok none
  else
    bestFrom amps errs 0 tpls none >>= fun b =>
    match b with
    | none => .ok none
    | some b => if (List.zipWith maskAt amps errs).any id then .ub else .ok (some (b.1, b.2.1))

end TplRatio
end Amazed
