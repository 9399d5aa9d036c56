import Mathlib.Algebra.Order.Field.Basic
import Verif.Model.Loop
import Verif.Model.Std

/-! # Dust and IGM extinction of a template (`src/lib/spectrum/template/template.cpp`, `spectrum/template/template.h`)

The members of a template that the extinctions touch: the selected flux component, its copy without extinction, the
indices and the coefficients. The flux type is fixed (changing it disables the extinctions, `DisableIsmIgm`), the error
axis and the other flux components are not modelled here. The two extinction objects are given by their functions. -/

namespace Amazed
namespace Tpl

/-- The extinction curves: `GetDustCoeff(kDust, λ)` of the dust object, and, for the IGM object, `getRedshiftIndex`
(`none` for `undefIdx`), the coefficient `getCorrection(zIdx, idx, wave index of λ)` and `getLambdaMax`. -/
structure Curves (K : Type) where
  dust : Int → K → Res K
  zIndex : K → Option Nat
  igm : Nat → Int → K → Res K
  igmMax : K

/-- The members of `CTemplate` (template.h:145-163). `noExt` is `m_NoIsmIgmFluxAxis`, empty when the extinctions are
disabled; `igmEnd` is `m_Igm_kend`, `none` for -1; `zIdx` is `m_meiksinRedshiftIdx`. -/
structure T (K : Type) where
  axis : List K
  flux : List K
  noExt : List K
  kDust : Int
  igmIdx : Int
  zIdx : Option Nat
  kstart : Nat
  kend : Nat
  igmEnd : Option Nat
  dustC : List K
  igmC : List K
  hasDust : Bool
  hasIgm : Bool
deriving DecidableEq

section
variable {K : Type} [Field K] [LinearOrder K]

/-- A template just constructed (template.cpp:60-66), with the given extinction objects. -/
def make (axis flux : List K) (hasDust hasIgm : Bool) : T K :=
  ⟨axis, flux, [], -1, -1, none, 0, 0, none, [], [], hasDust, hasIgm⟩

/-- `CheckIsmIgmEnabled` (template.h:122). -/
def enabled (t : T K) : Bool := decide (t.noExt ≠ [])

/-- `GetIgmEndIndex(kstart, kend)` (template.cpp:373-391): the last sample of `[kstart, kend]` at or below the largest
wavelength of the IGM curves, found by `std::upper_bound`. -/
def igmEndIndex (c : Curves K) (axis : List K) (kstart kend : Nat) : Option Nat :=
  let n := upperBound ((axis.take (kend + 1)).drop kstart) c.igmMax
  if n = 0 then none else some (kstart + n - 1)

/-- `InitIsmIgmConfig(kstart, kend, redshift)` (template.cpp:311-371) without new extinction objects. The state is also
given when the call throws. An empty range (`kend < kstart`) is not checked by the code; the search of the IGM end index
then runs on an invalid range. -/
def init (c : Curves K) (t : T K) (kstart kend : Int) (z : K) : T K × Res Unit :=
  if t.hasIgm = false ∧ t.hasDust = false then (t, .throw .INTERNAL_ERROR)
  else if kstart < 0 ∨ (t.axis.length : Int) ≤ kstart then (t, .throw .INTERNAL_ERROR)
  else if kend < 0 ∨ (t.axis.length : Int) ≤ kend then (t, .throw .INTERNAL_ERROR)
  else
    let t1 := { t with kDust := -1, igmIdx := -1, kstart := kstart.toNat, kend := kend.toNat, igmEnd := none }
    if t.hasIgm = true ∧ kend < kstart then (t1, .ub)
    else
      let t2 := if t.hasIgm = true then
        { t1 with zIdx := c.zIndex z, igmEnd := igmEndIndex c t.axis kstart.toNat kend.toNat } else t1
      if t.hasIgm = true ∧ t2.zIdx = none ∧ t2.igmEnd ≠ none then (t2, .throw .INTERNAL_ERROR)
      else
        let t3 := if t.noExt = [] then { t2 with noExt := t.flux } else { t2 with flux := t.noExt }
        ({ t3 with igmC := List.replicate t.axis.length 1, dustC := List.replicate t.axis.length 1 }, .ok ())

/-- The loop of `ApplyDustCoeff` and `ApplyMeiksinCoeff` (template.cpp:212-222, 249-266) over `[a, b]`: the new
coefficients of one kind (`coeff`, computed by `f`, given the wavelength) and the new flux, `other` being the coefficients
of the other kind. -/
def applyLoop (axis noExt flux coeff other : List K) (f : K → Res K) (a b : Nat) : Res (List K × List K) :=
  Res.tab (fun k => Res.at_ coeff k >>= fun old =>
    if a ≤ k ∧ k ≤ b then Res.at_ axis k >>= f else .ok old) coeff.length >>= fun coeff' =>
  Res.tab (fun k => Res.at_ flux k >>= fun old =>
    if a ≤ k ∧ k ≤ b then
      Res.at_ noExt k >>= fun x => Res.at_ coeff' k >>= fun p => Res.at_ other k >>= fun q => .ok (x * p * q)
    else .ok old) flux.length >>= fun flux' => .ok (coeff', flux')

/-- `ApplyDustCoeff` (template.cpp:199-224). When a coefficient throws, the index is already recorded. (The dust object
throws for a bad index at the first sample, so no coefficient has changed.) -/
def applyDust (c : Curves K) (t : T K) (k : Int) : T K × Res Bool :=
  if enabled t = false ∨ t.hasDust = false then (t, .throw .INTERNAL_ERROR)
  else if t.kDust = k then (t, .ok true)
  else
    let t1 := { t with kDust := k }
    match applyLoop t.axis t.noExt t.flux t.dustC t.igmC (fun w => if k > -1 then c.dust k w else .ok 1) t.kstart t.kend with
    | .ok (d, f) => ({ t1 with dustC := d, flux := f }, .ok true)
    | .throw e => (t1, .throw e)
    | .ub => (t1, .ub)

/-- The coefficient of one sample in `ApplyMeiksinCoeff` (template.cpp:252-258): 1 for a negative index.
`m_corrections[undefIdx]` is undefined. -/
def igmCoeff (c : Curves K) (zIdx : Option Nat) (i : Int) (w : K) : Res K :=
  if i > -1 then (match zIdx with | none => .ub | some z => c.igm z i w) else .ok 1

/-- `ApplyMeiksinCoeff` (template.cpp:230-268). The redshift index is defined whenever the IGM end index is. -/
def applyIgm (c : Curves K) (t : T K) (i : Int) : T K × Res Bool :=
  if enabled t = false ∨ t.hasIgm = false then (t, .throw .INTERNAL_ERROR)
  else if t.igmIdx = i then (t, .ok (decide (t.igmEnd ≠ none)))
  else
    let t1 := { t with igmIdx := i }
    match t.igmEnd with
    | none => (t1, .ok false)
    | some e =>
      match applyLoop t.axis t.noExt t.flux t.igmC t.dustC (igmCoeff c t.zIdx i) t.kstart e with
      | .ok (d, f) => ({ t1 with igmC := d, flux := f }, .ok true)
      | .throw er => (t1, .throw er)
      | .ub => (t1, .ub)

/-- `ApplyAmplitude` (template.cpp:393-398). -/
def amplitude (t : T K) (a : K) : T K :=
  if enabled t then { t with flux := t.flux.map (· * a), noExt := t.noExt.map (· * a) }
  else { t with flux := t.flux.map (· * a) }

/-- `DisableIsmIgm` (template.h:217-223). -/
def disable (t : T K) : T K := if t.noExt ≠ [] then { t with flux := t.noExt, noExt := [] } else t

/-- `SetFluxAxis` (template.h:168-176) on an axis of the right size. -/
def setFlux (t : T K) (l : List K) : T K × Res Unit :=
  if l.length ≠ t.axis.length then ({ t with noExt := [] }, .throw .INVALID_SPECTRUM)
  else ({ t with noExt := [], flux := l }, .ok ())

/-- The operations on the extinctions of a template. -/
inductive Op (K : Type) where
  | init (kstart kend : Int) (z : K)
  | dust (k : Int)
  | igm (i : Int)
  | amplitude (a : K)
  | disable
  | setFlux (l : List K)

/-- One call. -/
def step (c : Curves K) (t : T K) : Op K → T K × Res Unit
  | .init a b z => init c t a b z
  | .dust k => ((applyDust c t k).1, (applyDust c t k).2 >>= fun _ => .ok ())
  | .igm i => ((applyIgm c t i).1, (applyIgm c t i).2 >>= fun _ => .ok ())
  | .amplitude a => (amplitude t a, .ok ())
  | .disable => (disable t, .ok ())
  | .setFlux l => setFlux t l

/-- A history of calls that all return. -/
def run (c : Curves K) : T K → List (Op K) → Res (T K)
  | t, [] => .ok t
  | t, o :: os => (step c t o).2 >>= fun _ => run c (step c t o).1 os

/-- A history of calls whose exceptions are caught by the caller. -/
def runCatch (c : Curves K) (t : T K) (ops : List (Op K)) : T K := ops.foldl (fun t o => (step c t o).1) t

end
end Tpl
end Amazed
