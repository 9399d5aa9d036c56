import Verif.Model.FitAmp
import Verif.Model.EltList

set_option linter.unusedVariables false

/-! # Orthogonalisation of a template

`CTemplatesOrthogonalization::OrthogonalizeTemplate` (src/lib/linemodel/templatesortho.cpp:187-258) with the line model it builds on the template (linemodelfitting.cpp:100-121) and the
hybrid fit of elements that do not overlap (hybridfitter.cpp:120-169, abstractfitter.cpp:261-326), without wavelength or amplitude offsets. Overlapping elements (`fitAmplitudesLinSolve`, see `SvdFit`)
are not modelled here. The continuum method of the template is `zero` during the fit (templatesortho.cpp:202-204), so the continuum is null and the flux fitted is the flux of the template. -/

namespace Amazed
namespace Ortho

variable {K : Type} [Field K] [LinearOrder K] [IsStrictOrderedRing K]

/-- An element of the line model on the template: supports and profiles at redshift 0, parameters. -/
structure El (K : Type) where
  elt : EltSup.Elt
  prof : Nat → K → K
  par : Amp.Elt K

/-- The template as seen by the fit of an element: null continuum (`zero`), flux of the template. -/
def obs (axis flux err : List K) (e : El K) : FitAmp.Obs K :=
  ⟨axis, List.replicate axis.length 0, flux, err, e.elt, e.prof⟩

/-- `fitAmplitude` of an element (hybridfitter.cpp:152-157). -/
def fitOne (sq : K → K) (axis flux err : List K) (e : El K) : Res (El K) :=
  FitAmp.fitAmplitude sq [obs axis flux err e] e.par none >>= fun r => .ok { e with par := r.1 }

/-- The loop on the elements (hybridfitter.cpp:129-174). -/
def fitAll (sq : K → K) (axis flux err : List K) : List (El K) → Res (List (El K))
  | [] => .ok []
  | e :: es => fitOne sq axis flux err e >>= fun e' => fitAll sq axis flux err es >>= fun es' => .ok (e' :: es')

/-- `refreshModel` on the null continuum (templatesortho.cpp:229, spectrummodel.cpp:100-125). -/
def model (axis : List K) (es : List (El K)) : Res (List K) :=
  EltList.foldL (fun e flux => EltSup.addToModel e.elt e.par.isEmission (fun k => ⟨(e.par.fa[k]?).getD none, e.prof k⟩) none axis (List.replicate axis.length 0) flux) es (List.replicate axis.length 0)

/-- `OrthogonalizeTemplate` (templatesortho.cpp:187-258): the flux of the template returned; `enable` is `m_enableOrtho`. -/
def orthogonalize (enable : Bool) (sq : K → K) (axis flux err : List K) (es : List (El K)) : Res (List K) :=
  if !enable then .ok flux
  else fitAll sq axis flux err es >>= fun es' => model axis es' >>= fun m => .ok (List.zipWith (· - ·) flux m)

end Ortho
end Amazed
