import Mathlib.Analysis.SpecialFunctions.Pow.Real
import Mathlib.Analysis.SpecialFunctions.Trigonometric.Basic
import Mathlib.MeasureTheory.Integral.IntervalIntegral.Basic
import Verif.Basic

/-! # Line profiles (`src/lib/line/lineprofileSYM.cpp`, `lineprofileLOR.cpp`, `lineprofileASYM.cpp`, `lineprofileASYMFIT.cpp`)

Real arithmetic. A division by zero, whose result would not be a finite number, is `ub`; so is a result computed from a
parameter that is not a number. -/

namespace Amazed
namespace Profile

/-- `erf` of the C library: its mathematical definition. -/
noncomputable def erf (x : ℝ) : ℝ := 2 / √Real.pi * ∫ t in (0 : ℝ)..x, Real.exp (-t ^ 2)

/-- `CLineProfileSYM::GetLineProfileVal` (lineprofileSYM.cpp:51-60). -/
noncomputable def symVal (x x0 sigma : ℝ) : Res ℝ :=
  if sigma = 0 then .ub else .ok (Real.exp (-(1 / 2) * ((x - x0) / sigma) * ((x - x0) / sigma)))

/-- `CLineProfileSYM::GetLineFlux` (lineprofileSYM.cpp:62-65). -/
noncomputable def symFlux (sigma A : ℝ) : ℝ := A * sigma * √(2 * Real.pi)

/-- `CLineProfileSYM::GetLineProfileDerivX0` (lineprofileSYM.cpp:67-76). -/
noncomputable def symDerivX0 (x x0 sigma : ℝ) : Res ℝ :=
  if sigma = 0 then .ub
  else .ok ((x - x0) / sigma / sigma * Real.exp (-(1 / 2) * ((x - x0) / sigma) * ((x - x0) / sigma)))

/-- `CLineProfileSYM::GetLineProfileDerivSigma` (lineprofileSYM.cpp:78-88). -/
noncomputable def symDerivSigma (x x0 sigma : ℝ) : Res ℝ :=
  if sigma = 0 then .ub
  else .ok ((x - x0) / sigma * ((x - x0) / sigma) / sigma *
    Real.exp (-(1 / 2) * ((x - x0) / sigma * ((x - x0) / sigma))))

/-- `CLineProfileLOR::GetLineProfileVal` (lineprofileLOR.cpp:48-57). -/
noncomputable def lorVal (x x0 sigma : ℝ) : Res ℝ :=
  if sigma = 0 then .ub else .ok (1 / (1 + (x - x0) / sigma * ((x - x0) / sigma)))

/-- `CLineProfileLOR::GetLineFlux` (lineprofileLOR.cpp:63-66). -/
noncomputable def lorFlux (sigma A : ℝ) : ℝ := A * sigma * Real.pi

/-- Both derivatives of the Lorentzian profile (lineprofileLOR.cpp:68-77). -/
noncomputable def lorDeriv (_x _x0 _sigma : ℝ) : Res ℝ := .throw .INTERNAL_ERROR

/-- The members of `CLineProfileASYM` and `CLineProfileASYMFIT` (lineprofile.h:139, lineprofileASYM.h:107-111), `none`
being NaN; `fit` tells the class. `m_constSigma` follows from the centering method. -/
structure Asym where
  nsigma : ℝ
  c : Option ℝ
  alpha : Option ℝ
  delta : Option ℝ
  centering : String
  fit : Bool

/-- `m_constSigma` after the constructor (lineprofileASYM.cpp:57-58, lineprofileASYM.h:111). -/
noncomputable def constSigma (p : Asym) : ℝ := if p.centering = "mean" ∨ p.centering = "mode" then 5 / 2 else 1

/-- The test `isValid()` and its exception (lineprofileASYM.cpp:108-110, 181-187); the offset is not tested (the shape
parameter is tested twice). -/
def params (p : Asym) : Res (ℝ × ℝ) :=
  match p.c, p.alpha with
  | some c, some a => .ok (c, a)
  | _, _ => .throw .INTERNAL_ERROR

/-- `muz` of `GetXSurc` (lineprofileASYM.cpp:73-74). -/
noncomputable def muz (alpha : ℝ) : ℝ := alpha / √(1 + alpha * alpha) * √(2 / Real.pi)

/-- `m0` of `GetXSurc` (lineprofileASYM.cpp:73-97). In the mode, for a null shape parameter the exponential of `-2π/0` is
the IEEE one, zero. -/
noncomputable def m0 (centering : String) (alpha : ℝ) : ℝ :=
  if centering = "none" then 0
  else if centering = "mean" then muz alpha
  else if centering = "mode" then
    let d := alpha / √(1 + alpha * alpha)
    let sigmaz := √(1 - muz alpha * muz alpha)
    let gamma1 := (4 - Real.pi) / 2 * (d * √(2 / Real.pi)) ^ (3 : ℕ) / (1 - 2 * d * d / Real.pi) ^ ((3 : ℝ) / 2)
    muz alpha - gamma1 * sigmaz / 2 - 1 / 2 * (if alpha = 0 then 0 else Real.exp (-2 * Real.pi / alpha))
  else 0

/-- `GetXSurc` (lineprofileASYM.cpp:70-104): the centering `m0`, the scaled width and the reduced abscissa. -/
noncomputable def xsurc (p : Asym) (c alpha xc sigma : ℝ) : Res (ℝ × ℝ × ℝ) :=
  if p.centering = "none" ∧ p.delta ≠ some 0 then .throw .INTERNAL_ERROR
  else
    match p.delta with
    | none => .ub
    | some d =>
      if sigma * c = 0 then .ub
      else .ok (m0 p.centering alpha, sigma * c,
        (xc + sigma * c * m0 p.centering alpha + d) / (sigma * c))

/-- `CLineProfileASYM::GetLineProfileVal` (lineprofileASYM.cpp:106-117). -/
noncomputable def asymVal (p : Asym) (x x0 sigma : ℝ) : Res ℝ :=
  params p >>= fun q => xsurc p q.1 q.2 (x - x0) sigma >>= fun r =>
  .ok (Real.exp (-(1 / 2) * r.2.2 * r.2.2) * (1 + erf (q.2 / √2 * r.2.2)))

/-- `CLineProfileASYM::GetNSigmaSupport` (lineprofileASYM.cpp:119-121). -/
noncomputable def asymSupport (p : Asym) : Option ℝ := p.c.map (fun c => p.nsigma * c * constSigma p)

/-- `CLineProfileASYM::GetLineFlux` (lineprofileASYM.cpp:123-126). -/
noncomputable def asymFlux (p : Asym) (sigma A : ℝ) : Option ℝ := p.c.map (fun c => A * sigma * c * √(2 * Real.pi))

/-- `CLineProfileASYM::GetLineProfileDerivX0` (lineprofileASYM.cpp:128-145). -/
noncomputable def asymDerivX0 (p : Asym) (x x0 sigma : ℝ) : Res ℝ :=
  params p >>= fun q => xsurc p q.1 q.2 (x - x0) sigma >>= fun r =>
  .ok (r.2.2 / r.2.1 * Real.exp (-(1 / 2) * (r.2.2 * r.2.2)) * (1 + erf (q.2 / √2 * r.2.2)) -
    q.2 / √(2 * Real.pi) / r.2.1 * Real.exp (-(1 + q.2 * q.2) / 2 * (r.2.2 * r.2.2)))

/-- `CLineProfileASYM::GetLineProfileDerivSigma` (lineprofileASYM.cpp:147-175). -/
noncomputable def asymDerivSigma (p : Asym) (x x0 sigma : ℝ) : Res ℝ :=
  params p >>= fun q => xsurc p q.1 q.2 (x - x0) sigma >>= fun r =>
  let u2 := r.2.2 * r.2.2
  let valSym := Real.exp (-(1 / 2) * u2)
  let valAsym := 1 + erf (q.2 / √2 * r.2.2)
  let valSymD := q.1 * (u2 / r.2.1 - r.1 * r.2.2 / r.2.1) * Real.exp (-(1 / 2) * u2)
  let valAsymD := q.1 * q.2 * √2 / (r.2.1 * √Real.pi) * (r.1 - r.2.2) * Real.exp (-(1 / 2) * u2 * (q.2 * q.2))
  .ok (valSym * valAsymD + valSymD * valAsym)

/-- The constructor of `CLineProfileASYM` from an `ASYMFIT` profile (lineprofileASYM.cpp:62-64). -/
def toFixed (p : Asym) : Asym := ⟨p.nsigma, p.c, p.alpha, p.delta, p.centering, false⟩

/-- The constructor of `CLineProfileASYMFIT` from an `ASYM` profile (lineprofileASYMFIT.cpp:51-53). -/
def toFit (p : Asym) : Asym := ⟨p.nsigma, p.c, p.alpha, p.delta, p.centering, true⟩

/-- `SetAsymParams` (lineprofileASYMFIT.cpp:59-69; the base class does nothing, lineprofile.h:125). -/
def setParams (p : Asym) (c alpha delta : Option ℝ) : Asym :=
  if p.fit then { p with c := c, alpha := alpha, delta := delta } else p

/-- `resetParams` (lineprofileASYMFIT.cpp:71-75; the base class does nothing, lineprofile.h:127). -/
def resetParams (p : Asym) : Asym := setParams p (some 2) (some 0) (some 0)

end Profile
end Amazed
