import Mathlib.Analysis.SpecialFunctions.Sqrt
import Verif.Model.Loop
import Verif.Model.Std

/-! # `CDeltaz` (`src/lib/statistics/deltaz.cpp`)

Real arithmetic: rounding is not modelled. A NaN result is `none`. `Compute3ddl` (a quadratic fit by GSL, used only with
`gslfit`, which is 0 by default and in every call of the library) is not modelled. -/

namespace Amazed
namespace Deltaz

/-- `CDeltaz::GetIndices` (deltaz.cpp:85-104): `iz`, `izmin`, `izmax`. -/
noncomputable def getIndices (zs : List ℝ) (z : ℝ) (half : Nat) : Res (Nat × Nat × Nat) :=
  match zs[lowerBound zs z]? with
  | none => .throw .INTERNAL_ERROR
  | some y =>
    open Classical in
    if y ≠ z then .throw .INTERNAL_ERROR
    else .ok (lowerBound zs z, lowerBound zs z - half, min (lowerBound zs z + half) (zs.length - 1))

/-- The loop of `CDeltaz::Compute` (deltaz.cpp:116-124): `sum`, `sum2`. -/
noncomputable def sums (merits zs : List ℝ) (x0 y0 : ℝ) (izmin izmax : Nat) : Res (ℝ × ℝ) :=
  Res.foldN (fun i (s : ℝ × ℝ) => Res.at_ zs i >>= fun x => Res.at_ merits i >>= fun y =>
    .ok (s.1 + (x - x0) * (x - x0) * (y0 - y), s.2 + (x - x0) * (x - x0) * ((x - x0) * (x - x0))))
    izmin (izmax + 1 - izmin) (0, 0)

/-- `CDeltaz::Compute` (deltaz.cpp:106-132). `sum2` is 0 only if every `xi2` is, and then `sum` is 0 too: `c0` is NaN, the
comparison `c0 <= 0` is false and the result is NaN. -/
noncomputable def compute (merits zs : List ℝ) (iz izmin izmax : Nat) : Res (Option ℝ) :=
  Res.at_ zs iz >>= fun x0 => Res.at_ merits iz >>= fun y0 => sums merits zs x0 y0 izmin izmax >>= fun s =>
  open Classical in
  if s.2 = 0 then .ok none
  else if s.1 / s.2 ≤ 0 then .throw .DZ_NOT_COMPUTABLE
  else .ok (some (Real.sqrt (1 / (s.1 / s.2))))

/-- The retry loop of `CDeltaz::GetDeltaz` (deltaz.cpp:61-81) over the half widths of the window: an exception of `Compute` is
caught, one of `GetIndices` is not. -/
noncomputable def retry (zs pdf : List ℝ) (z : ℝ) : List Nat → Res (Option ℝ)
  | [] => .ok none
  | half :: rest => getIndices zs z half >>= fun i =>
    match compute pdf zs i.1 i.2.1 i.2.2 with
    | .ok r => .ok r
    | .throw _ => retry zs pdf z rest
    | .ub => .ub

/-- `CDeltaz::GetDeltaz` (deltaz.cpp:51-83): the half widths are `5 / (i + 1)` for `i < 2`; a NaN gives 0.001. -/
noncomputable def getDeltaz (zs pdf : List ℝ) (z : ℝ) : Res ℝ :=
  if zs = [] then .throw .INTERNAL_ERROR
  else retry zs pdf z ((List.range 2).map (fun i => 5 / (i + 1))) >>= fun r => .ok (r.getD 0.001)

end Deltaz
end Amazed
