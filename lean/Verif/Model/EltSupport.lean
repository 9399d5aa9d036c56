import Verif.Basic
import Verif.Model.Loop
import Verif.Model.SpectralAxis
import Mathlib.Algebra.Order.Field.Basic

set_option linter.unusedVariables false

/-! # Supports and model of a line element

`RedshiftLibrary/src/lib/linemodel/element.cpp` and `RedshiftLibrary/linemodel/element.h`.

The vectors of the element (`m_StartNoOverlap`, `m_EndNoOverlap`, `m_StartTheoretical`, `m_EndTheoretical`,
`m_OutsideLambdaRangeList`, `m_LineIsActiveOnSupport`) all have one entry for each of the `n` lines, set by `assign` at the
beginning of `prepareSupport`, and every access is at an index below `n`; they are represented by functions of the index.
The observed position, the width of the support window, the availability of the LSF and the value of the profile of a line
are parameters. -/

namespace Amazed
namespace EltSup

variable {K : Type} [Field K] [LinearOrder K] [IsStrictOrderedRing K]

/-- What `EstimateTheoreticalSupport` uses of a line at the current redshift: is the LSF available at its position
(element.cpp:183), its observed position `mu` (182) and the window size (187-190). -/
structure LineGeom (K : Type) where
  avail : Bool
  mu : K
  win : K

/-- Result for a line: first and last sample of its theoretical support (-1 if not set), and whether the line counts as
outside of the range. -/
structure Theo where
  s : ℤ
  e : ℤ
  out : Bool
deriving DecidableEq, Inhabited

/-- `EstimateIndexRange` (element.cpp:225-254). -/
def indexRange (axis : List K) (mu : K) (lr : Range K) (win : K) : Res (ℤ × ℤ) :=
  let b0 := mu - win / 2
  let b := if b0 < lr.b then lr.b else b0
  SAxis.indexAt axis b >>= fun ib =>
  let e0 := mu + win / 2
  let e := if e0 > lr.e then lr.e else e0
  SAxis.indexAt axis e >>= fun ie =>
  Res.at_ axis ie >>= fun x =>
  let ie1 : ℤ := if x > lr.e then (ie : ℤ) - 1 else ie
  .ok (ib, if ie1 < ib then (ib : ℤ) - 1 else ie1)

/-- `EstimateTheoreticalSupport` (element.cpp:179-220); the threshold `m_OutsideLambdaRangeOverlapThreshold` is 0.33
(element.cpp:57-58). -/
def theoretical (axis : List K) (lr : Range K) (g : LineGeom K) : Res Theo :=
  if g.avail = false then .ok ⟨-1, -1, true⟩
  else
    indexRange axis g.mu lr g.win >>= fun r =>
    if r.1 > r.2 then .ok ⟨r.1, r.2, true⟩
    else
      Res.atZ axis r.1 >>= fun x =>
      Res.atZ axis r.2 >>= fun y =>
      let m := 33 / 100 * g.win
      .ok ⟨r.1, r.2, decide (x ≥ lr.e - m) || decide (y ≤ lr.b + m)⟩

/-- `m_StartNoOverlap`, `m_EndNoOverlap` and `m_LineIsActiveOnSupport`. -/
structure Sup where
  s : Nat → ℤ
  e : Nat → ℤ
  act : Nat → Nat → Bool

/-- Assignment `v[i] = x`. -/
def upd {α : Type} (v : Nat → α) (i : Nat) (x : α) : Nat → α := fun k => if k = i then x else v k

/-- Assignment `m[i][j] = true`. -/
def mark (m : Nat → Nat → Bool) (i j : Nat) : Nat → Nat → Bool := fun a b => if a = i ∧ b = j then true else m a b

/-- `max - min < 0` on two index ranges (element.cpp:321-323). -/
def overlaps (x1 x2 y1 y2 : ℤ) : Bool := decide (max x1 y1 - min x2 y2 < 0)

/-- The loop on the lines already active on the support of `p`, which are set active on that of `q` (element.cpp:339-347
with `p = i`, `q = j`; 350-358 with `p = j`, `q = i`). -/
def link (n : Nat) (out : Nat → Bool) (p q : Nat) (act : Nat → Nat → Bool) : Nat → Nat → Bool :=
  (List.range n).foldl (fun a m => if out m then a else if a p m then mark (mark a m q) q m else a) act

/-- The body of the test on an overlapping pair (element.cpp:323-359). -/
def merge (n : Nat) (out : Nat → Bool) (i j : Nat) (t : Sup) : Sup :=
  let ns := min (t.s i) (t.s j)
  let ne := max (t.e i) (t.e j)
  let act1 := mark (mark t.act i j) j i
  ⟨upd (upd t.s i ns) j ne, upd (upd t.e i ne) j (ne - 1), link n out j i (link n out i j act1)⟩

/-- The body of the loop on `j` (element.cpp:304-360). -/
def pairStep (n : Nat) (out : Nat → Bool) (i : Nat) (t : Sup) (j : Nat) : Sup :=
  if out j then t
  else if t.s j > t.e j then t
  else if i = j then t
  else if overlaps (t.s i) (t.e i) (t.s j) (t.e j) then merge n out i j t else t

/-- The body of the loop on `i` (element.cpp:297-361). -/
def lineStep (n : Nat) (out : Nat → Bool) (t : Sup) (i : Nat) : Sup :=
  if out i then t
  else if t.s i > t.e i then t
  else (List.range n).foldl (pairStep n out i) t

/-- The loop on `i` (element.cpp:297-361). -/
def pass (n : Nat) (out : Nat → Bool) (t : Sup) : Sup := (List.range n).foldl (lineStep n out) t

/-- The check of the remaining overlaps (element.cpp:363-392). -/
def hasDup (n : Nat) (out : Nat → Bool) (t : Sup) : Bool :=
  (List.range n).any fun i => !out i && (List.range n).any fun j =>
    !out j && !decide (i = j) && overlaps (t.s i) (t.e i) (t.s j) (t.e j)

/-- The `while` loop (element.cpp:295-393), with `k` passes left; 20 in the code. -/
def passes (n : Nat) (out : Nat → Bool) : Nat → Sup → Sup
  | 0, t => t
  | k + 1, t => let t' := pass n out t; if hasDup n out t' then passes n out k t' else t'

/-- The state after `prepareSupport`. -/
structure Elt where
  n : Nat
  theo : Nat → Theo
  sup : Sup

/-- `m_OutsideLambdaRange` as set by `computeOutsideLambdaRange` (element.cpp:256-260). -/
def Elt.outside (e : Elt) : Bool := (List.range e.n).all fun i => (e.theo i).out

/-- `prepareSupport` (element.cpp:267-394). -/
def prepareSupport (axis : List K) (lr : Range K) (lines : List (LineGeom K)) : Res Elt :=
  Res.tab (fun i => Res.at_ lines i >>= fun g => theoretical axis lr g) lines.length >>= fun th =>
  let theo := fun i => (th[i]?).getD ⟨-1, -1, true⟩
  let t0 : Sup := ⟨fun i => (theo i).s, fun i => (theo i).e, fun a b => decide (a = b)⟩
  .ok ⟨lines.length, theo, passes lines.length (fun i => (theo i).out) 20 t0⟩

/-- `getSupport` (element.cpp:401-413). -/
def Elt.getSupport (e : Elt) : List (ℤ × ℤ) :=
  if e.outside then []
  else ((List.range e.n).filter fun i => !(e.theo i).out).map fun i => (e.sup.s i, e.sup.e i)

/-- What the model of an element uses of a line: the fitted amplitude (`none`: NaN) and the profile at the current
redshift as a function of the wavelength. -/
structure LineFlux (K : Type) where
  amp : Option K
  prof : K → K

/-- The contribution of a line at wavelength `x` (element.cpp:652-663): `sign` is `m_SignFactors`, 1 for an emission and -1
for an absorption element. -/
def contrib (emission : Bool) (f : LineFlux K) (x cont : K) : K :=
  match f.amp with
  | none => 0
  | some a => if a < 0 then 0 else if emission then a * f.prof x else cont * (-(a * f.prof x))

/-- `getModelAtLambda` with a line index (element.cpp:635-672); numbers are not NaN. -/
def modelAt (e : Elt) (emission : Bool) (fl : Nat → LineFlux K) (x cont : K) (index : Nat) : K :=
  if e.outside then 0
  else (List.range e.n).foldl (fun y k =>
    if (e.theo k).out then y
    else if e.sup.act index k = false then y
    else y + contrib emission (fl k) x cont) 0

/-- The loop on the samples of a support (element.cpp:575-587): `k` samples from sample `i`. -/
def addRange (f : Nat → K → Res K) : Nat → Nat → List K → Res (List K)
  | 0, _, flux => .ok flux
  | k + 1, i, flux => Res.at_ flux i >>= fun y => f i y >>= fun y' => addRange f k (i + 1) (flux.set i y')

/-- `for (i = s; i <= e; i++)` over the samples of a flux axis; a negative first index is undefined. -/
def overSupport (f : Nat → K → Res K) (s e : ℤ) (flux : List K) : Res (List K) :=
  if s > e then .ok flux else if s < 0 then .ub else addRange f (e - s + 1).toNat s.toNat flux

/-- The test on the line asked for (element.cpp:572-573, 818-819). -/
def skipSup (e : Elt) : Option Nat → Nat → Bool
  | none, _ => false
  | some l, index => !e.sup.act l index

/-- `addToSpectrumModel` (element.cpp:560-590); `line` is the `line_index` argument (`none`: `undefIdx`). -/
def addToModel (e : Elt) (emission : Bool) (fl : Nat → LineFlux K) (line : Option Nat) (axis cont flux : List K) :
    Res (List K) :=
  if e.outside then .ok flux
  else Res.foldN (fun index flux =>
    if (e.theo index).out then .ok flux
    else if skipSup e line index then .ok flux
    else overSupport (fun i y => Res.at_ axis i >>= fun x => Res.at_ cont i >>= fun c =>
        .ok (y + modelAt e emission fl x c index)) (e.sup.s index) (e.sup.e index) flux) 0 e.n flux

/-- `initSpectrumModel` (element.cpp:807-825). -/
def initModel (e : Elt) (line : Option Nat) (cont flux : List K) : Res (List K) :=
  if e.outside then .ok flux
  else Res.foldN (fun index flux =>
    if (e.theo index).out then .ok flux
    else if skipSup e line index then .ok flux
    else overSupport (fun i y => Res.at_ cont i) (e.sup.s index) (e.sup.e index) flux) 0 e.n flux

/-- `addToSpectrumModelDerivVel` (element.cpp:592-630); `dprof k` is the derivative of the profile of line `k` with respect to
the velocity as a function of the wavelength. The flag `emissionLine` selects the elements of that type. -/
def addDerivVel (e : Elt) (emission emissionLine : Bool) (amp : Nat → Option K) (dprof : Nat → K → K) (axis cont flux : List K) :
    Res (List K) :=
  if e.outside then .ok flux
  else Res.foldN (fun index flux =>
    if (e.theo index).out then .ok flux
    else if emissionLine != emission then .ok flux
    else match amp index with
      | none => .ok flux
      | some a =>
        overSupport (fun i y => Res.at_ axis i >>= fun x =>
          if emission then .ok (y + a * dprof index x)
          else Res.at_ cont i >>= fun c => .ok (y + (-1) * a * c * dprof index x))
          (e.sup.s index) (e.sup.e index) flux) 0 e.n flux

end EltSup
end Amazed
