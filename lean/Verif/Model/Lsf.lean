import Mathlib.Analysis.SpecialFunctions.Pow.Real
import Verif.Model.Indexing
import Verif.Model.LineProfile
import Verif.Model.Loop

/-! # Line spread functions (`src/lib/spectrum/LSF*.cpp`, `spectrum/LSF*.h`)

Real arithmetic. All the functions of the library have the symmetric profile. -/

namespace Amazed
namespace Lsf

/-- The five classes with their members (LSFConstantWidth.h:71, LSFConstantResolution.h:62, LSF_NISPSIM_2016.h,
LSF_NISPVSSPSF_201707.h:59, LSFVariableWidth.h:67-68). -/
inductive T where
  | constWidth (w : ℝ)
  | constRes (r : ℝ)
  | nisp2016
  | nispVss (size : ℝ)
  | varWidth (lambdas widths : List ℝ)

/-- `IsValid` (LSFConstantWidth.h:65, LSFConstantResolution.cpp:66-68, LSF_NISPSIM_2016.cpp:58,
LSF_NISPVSSPSF_201707.cpp:79, LSFVariableWidth.cpp:80-93). -/
noncomputable def isValid : T → Res Bool
  | .constWidth w => .ok (decide (0 < w))
  | .constRes r => .ok (decide (1 < r))
  | .nisp2016 => .ok true
  | .nispVss _ => .ok true
  | .varWidth ls ws =>
    if ws.length = 0 then .throw .BAD_COUNTMATCH
    else if ls.length ≠ ws.length then .throw .BAD_COUNTMATCH
    else .ok (ws.all (fun w => decide (0 < w)))

/-- The constructors (LSFConstantWidth.h:52-59, LSFConstantResolution.cpp:46-54, LSF_NISPSIM_2016.cpp:46-48,
LSF_NISPVSSPSF_201707.cpp:46-49, LSFVariableWidth.cpp:49-56). -/
noncomputable def make (t : T) : Res T :=
  isValid t >>= fun b => if b then .ok t else .throw .INVALID_LSF

/-- `INSTRUMENT_RESOLUTION_FACTOR` (defaults.h:25). -/
noncomputable def factor : ℝ := 1 / (2355 / 1000)

/-- `getSpectralRange` (LSF.h:123-125, LSFVariableWidth.h:62-64, range.h:64-66, defaults.h:38-39). -/
noncomputable def range : T → Range ℝ
  | .varWidth ls _ => ⟨ls.head?.getD 0, ls.getLast?.getD 0⟩
  | _ => ⟨200, 30000⟩

/-- `checkAvailability` (LSF.h:120-122, LSFVariableWidth.h:59-61), called on a constructed function. -/
noncomputable def available : T → ℝ → Res Bool
  | .varWidth ls ws, l =>
    Res.at_ ls 0 >>= fun a =>
    if a ≤ l then Res.at_ ls (ws.length - 1) >>= fun b => .ok (decide (l ≤ b)) else .ok false
  | _, _ => .ok true

/-- `GetWidth` without clipping (LSFConstantWidth.h:61-63, LSFConstantResolution.cpp:62-63, LSF_NISPSIM_2016.cpp:54-55,
LSF_NISPVSSPSF_201707.cpp:56-76, LSFVariableWidth.cpp:64-77). -/
noncomputable def widthAt : T → ℝ → Res ℝ
  | .constWidth w, _ => .ok w
  | .constRes r, l => if r = 0 then .ub else .ok (l / r * factor)
  | .nisp2016, l => .ok ((l * (8121 / 10000000) + 74248 / 10000) / (235 / 100))
  | .nispVss size, l =>
    let i := l * (3939 / 10000000) + 2191 / 1000
    let s := size * (134 / 10) / (355 / 1000)
    .ok √(i * i + s * s)
  | .varWidth ls ws, l =>
    available (.varWidth ls ws) l >>= fun a =>
    if a = false then .throw .INSUFFICIENT_LSF_COVERAGE
    else
      getClosestLowerIndex ls l >>= fun o =>
      match o with
      | none => .ub
      | some i =>
        Res.at_ ls i >>= fun li =>
        if li = l then Res.at_ ws i
        else
          Res.at_ ls (i + 1) >>= fun lj =>
          Res.at_ ws i >>= fun wi =>
          Res.at_ ws (i + 1) >>= fun wj =>
          if lj - li = 0 then .ub
          else
            let t := (l - li) / (lj - li)
            .ok (wi * (1 - t) + wj * t)

/-- `GetWidth(lambda, cliplambda)` (the same lines); the constant width ignores the clipping. -/
noncomputable def width (t : T) (l : ℝ) (clip : Bool) : Res ℝ :=
  widthAt t (if clip then (range t).clamp l else l)

/-- `computeResolution` (LSFConstantResolution.cpp:70-73). -/
noncomputable def computeResolution (l w : ℝ) : Res ℝ := if w = 0 then .ub else .ok (l / w * factor)

/-- `getNormalizedProfileVector` (LSF.cpp:63-84). The division of one by a null sum is undefined here unless there is
nothing to normalise. -/
noncomputable def kernel (t : T) (lambdas : List ℝ) (l0 : ℝ) : Res (List ℝ) :=
  isValid t >>= fun b =>
  if b = false then .throw .INTERNAL_ERROR
  else
    width t l0 true >>= fun sigma =>
    Res.tab (fun i => Res.at_ lambdas i >>= fun l => Profile.symVal l l0 sigma) lambdas.length >>= fun k =>
    if k = [] then .ok [] else if k.sum = 0 then .ub else .ok (k.map (fun x => x * (1 / k.sum)))

end Lsf
end Amazed
