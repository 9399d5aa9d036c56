import Verif.Model.Template
import Verif.Model.SpectralAxis

/-! # Masked copy of a template (`src/lib/spectrum/template/template.cpp`)

The copy keeps the samples whose mask is 1. As in `Verif.Model.Template`, only the selected flux component is represented;
the error axis is not. -/

namespace Amazed
namespace Tpl
section
variable {K : Type} [Field K] [LinearOrder K]

/-- The members of the copy before the extinctions are considered (template.cpp:93-101, spectrum.cpp:77-78): the dust, IGM
and redshift indices and the extinction objects of the original, the masked axis and flux. The other members have their
initial values (template.h:154-163), -1 for the three sample indices (`kstart` and `kend` are 0 here; they are only read
when the extinctions are enabled, and then they are set). -/
def maskedBase (t : T K) (a f : List K) : T K :=
  ⟨a, f, [], t.kDust, t.igmIdx, t.zIdx, 0, 0, none, [], [], t.hasDust, t.hasIgm⟩

/-- The extinctions of the copy (template.cpp:108-129), from the answer of `getClosedIntervalIndices`. When the kept
samples are all on one side of the range, the extinctions of the copy are disabled; the other exceptions are thrown
again. -/
def maskedExt (mask : List K) (t u : T K) : Res (Nat × Nat) → Res (T K)
  | .ok ij =>
    maskVector mask t.noExt >>= fun ne => maskVector mask t.dustC >>= fun dc => maskVector mask t.igmC >>= fun ic =>
    .ok { u with kstart := ij.1, kend := ij.2, noExt := ne, dustC := dc, igmC := ic }
  | .throw e => if e = .CRANGE_VECTBORDERS_OUTSIDERANGE then .ok u else .throw e
  | .ub => .ub

/-- `CTemplate(const CTemplate &other, const TFloat64List &mask)` (template.cpp:93-131). -/
def masked (mask : List K) (t : T K) : Res (T K) :=
  maskVector mask t.axis >>= fun a => maskVector mask t.flux >>= fun f =>
  if enabled t = false then .ok (maskedBase t a f)
  else
    Res.at_ t.axis t.kstart >>= fun b => Res.at_ t.axis t.kend >>= fun e =>
    maskedExt mask t (maskedBase t a f) (Range.closedIdx ⟨b, e⟩ a)

end
end Tpl
end Amazed
