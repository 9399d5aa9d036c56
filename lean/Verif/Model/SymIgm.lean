import Verif.Model.FluxAxis
import Verif.Model.LineProfile
import Verif.Model.Meiksin

/-! # Symmetric line profile absorbed by the intergalactic medium (`src/lib/line/lineprofileSYMIGM.cpp`)

Real arithmetic. A redshift that is not a number (its initial value) makes the lookup of the redshift bin decrement the
beginning of a vector: `ub`. -/

namespace Amazed
namespace SymIgm

/-- The members of `CLineProfileSYMIGM` (lineprofileSYMIGM.h:97-100); `none` is a null pointer, or NaN. -/
structure P where
  igm : Option (Meiksin.T ℝ)
  z : Option ℝ
  idx : Int
  fit : Bool

/-- `GetIgmIdx` (lineprofileSYMIGM.h:83-85). -/
def igmIdx (p : P) : Int := if p.idx ≠ -1 then p.idx else 3

/-- `CheckMeiksinInit` (lineprofileSYMIGM.cpp:56-60) and the redshift. -/
noncomputable def init (p : P) : Res (Meiksin.T ℝ × ℝ) :=
  match p.igm with
  | none => .throw .INTERNAL_ERROR
  | some m => match p.z with
    | none => .ub
    | some z => .ok (m, z)

/-- `getIGMCorrection` (lineprofileSYMIGM.cpp:170-173). -/
noncomputable def corr (p : P) (m : Meiksin.T ℝ) (z x : ℝ) : Res ℝ :=
  if 1 + z = 0 then .ub else Meiksin.correction m z (igmIdx p) (x / (1 + z))

/-- `GetLineProfileVal` (lineprofileSYMIGM.cpp:62-71). -/
noncomputable def val (p : P) (x x0 sigma : ℝ) : Res ℝ :=
  init p >>= fun mz =>
  corr p mz.1 mz.2 x >>= fun c =>
  Profile.symVal x x0 sigma >>= fun g => .ok (g * c)

/-- `GetLineProfileDerivSigma` (lineprofileSYMIGM.cpp:141-150). -/
noncomputable def derivSigma (p : P) (x x0 sigma : ℝ) : Res ℝ :=
  init p >>= fun mz =>
  corr p mz.1 mz.2 x >>= fun c =>
  Profile.symDerivSigma x x0 sigma >>= fun g => .ok (g * c)

/-- `GetLineProfileDerivX0` and `getIGMCorrectionAndDerivX0` (lineprofileSYMIGM.cpp:125-139, 175-186). -/
noncomputable def derivX0 (p : P) (x x0 sigma : ℝ) : Res ℝ :=
  init p >>= fun mz =>
  if 1 + mz.2 = 0 then .ub
  else if x0 = 0 then .ub
  else
    Meiksin.correctionDeriv mz.1 mz.2 (igmIdx p) (x / (1 + mz.2)) >>= fun cd =>
    Profile.symDerivX0 x x0 sigma >>= fun g =>
    Profile.symVal x x0 sigma >>= fun v =>
    .ok (g * cd.1 + v * (-(x / (1 + mz.2)) / x0 * cd.2))

/-- `GetLineFlux` (lineprofileSYMIGM.cpp:84-122). The test of an empty list is unreachable: `getWaveAndCorrectionVector`
throws first. The flux axis made from the profile has unit errors. -/
noncomputable def flux (p : P) (x0 sigma A : ℝ) : Res ℝ :=
  init p >>= fun mz =>
  if 1 + mz.2 = 0 then .ub
  else
    let x0r := x0 / (1 + mz.2)
    let win := sigma / (1 + mz.2) * 8
    let range : Range ℝ := ⟨x0r - win / 2, x0r + win / 2⟩
    if Meiksin.lya < range.b then .ok (Profile.symFlux sigma A)
    else
      Meiksin.waveAndCorrection mz.1 range mz.2 (igmIdx p) >>= fun wc =>
      Res.tab (fun i => Res.at_ wc.1 i >>= fun xr => val p (xr * (1 + mz.2)) x0 sigma) wc.1.length >>= fun gaussian =>
      Res.tab (fun i => Res.at_ gaussian i >>= fun g => Res.at_ wc.2 i >>= fun c => .ok (g * c)) gaussian.length >>= fun profile =>
      Flux.integrateTrapez wc.1 profile (List.replicate profile.length 1) [(0, wc.1.length - 1)] >>= fun f =>
      .ok (A * f.1)

/-- `SetSymIgmParams` (lineprofileSYMIGM.cpp:156-159). -/
def setParams (p : P) (idx : Int) (z : Option ℝ) : P := { p with idx := idx, z := z }

/-- `resetParams` (lineprofileSYMIGM.cpp:161-164), with the default parameters (lineprofile.h:76-83). -/
def reset (p : P) : P := if p.fit then setParams p (-1) none else p

end SymIgm
end Amazed
