import Verif.Props.SvdLcProps

set_option linter.unusedVariables false
set_option linter.unusedSectionVars false

/-! # Joint fit of the lines and of the continuum: the whole fit (C156) -/

namespace Amazed
namespace SvdLc
open Amp (SameElt)
open SvdFit (Env Row Solver mapL colVal setAmp setFitted Exact unitAt unitFlux NomOk getD_of modelAll modelAll_sum)
open SpcModel (polyVal)

variable {K G : Type} [Field K] [LinearOrder K] [IsStrictOrderedRing K] [LinearOrder G]

theorem validIndexes_lt {es : List (EltList.E K G)} {dis : List Nat} : (∀ i ∈ EltList.validIndexes es dis, i < es.length) ∧ (EltList.validIndexes es dis).Nodup := by
  unfold EltList.validIndexes
  exact ⟨fun i hi => List.mem_range.1 (List.mem_filter.1 hi).1, List.nodup_range.filter _⟩

/-- The amplitude of the continuum is the one of the state: its lengths. -/
structure SpcOk (env : Env K G) (grid inputCont : List K) (s : SpcModel.St K) : Prop where
  axis : s.axis = env.axis
  spc : s.spc = env.flux
  cont : s.cont.length = env.axis.length
  noCont : s.noCont.length = env.axis.length
  grid : grid.length = env.axis.length
  inputCont : inputCont.length = env.axis.length

/-- With `alpha = 0` the continuum is the template times its amplitude plus its polynomial. -/
theorem setCont_spec {grid inputCont : List K} {env : Env K G} {s : SpcModel.St K} (hs : SpcOk env grid inputCont s) (hfl : env.flux.length = env.axis.length)
    (c : Cont K) :
    ∃ s', setCont 0 grid inputCont c s = .ok (c, s') ∧ SpcOk env grid inputCont s' ∧
      ∀ p : Nat, p < env.axis.length → s'.cont.getD p 0 = c.amp * grid.getD p 0 + polyVal c.poly (env.axis.getD p 0) := by
  obtain ⟨c', n', h1, h2, h3, h4⟩ := SpcModel.C83_continuum 0 c.amp c.poly grid inputCont s (by rw [hs.cont, hs.axis]) (by rw [hs.spc, hfl, hs.axis])
    (by rw [hs.noCont, hs.axis]) (by rw [hs.grid, hs.axis]) (by rw [hs.inputCont, hs.axis])
  refine ⟨{ s with cont := c', noCont := n' }, by unfold setCont; rw [h1, Res.bind_ok], ⟨hs.axis, hs.spc, by rw [h2, hs.axis], by rw [h3, hs.axis], hs.grid, hs.inputCont⟩, fun p hp => ?_⟩
  have q1 : p < s.axis.length := by rw [hs.axis]; exact hp
  have q2 : p < s.spc.length := by rw [hs.spc, hfl]; exact hp
  have q3 : p < grid.length := by rw [hs.grid]; exact hp
  have q4 : p < inputCont.length := by rw [hs.inputCont]; exact hp
  have := (h4 p _ _ _ _ (List.getElem?_eq_getElem q1) (List.getElem?_eq_getElem q2) (List.getElem?_eq_getElem q3) (List.getElem?_eq_getElem q4)).1
  simp only [List.getD_eq_getElem?_getD] at *
  rw [this, Option.getD_some, ← hs.axis, List.getElem?_eq_getElem q1, List.getElem?_eq_getElem q3]
  simp only [Option.getD_some]
  ring

/-- **C156** The lines and the continuum are fitted together: with an exact least squares solver, enough samples in the lambda range and a flux which is not
null there, the fit succeeds; the amplitudes of the valid elements, the amplitude of the template and the coefficients of the polynomial minimise the chi-square of
the joint model over the samples of the lambda range, in the units of the spectrum; they are the ones of the elements (with their errors), of the continuum of the model (the
template times its amplitude plus the polynomial), and of the stored description of the continuum; the other elements are not changed; the model is the continuum, and
the flux without continuum is the flux minus it. -/
theorem C156_fit (env : Env K G) (solve : Solver K) (hsolve : Exact solve) (lr : Range K) (po : Int) (grid inputCont : List K) (dis : List Nat)
    (s : SpcModel.St K) (st : List (Amp.Elt K)) (hok : Ok env st) (hs : SpcOk env grid inputCont s) {idx : List Nat} (hidx : idx = EltList.validIndexes env.es dis)
    (hne : idx ≠ []) {ij : Nat × Nat} (hr : Range.closedIdx lr env.axis = .ok ij) (hn : idx.length + 1 + (po + 1).toNat ≤ ij.2 - ij.1 + 1)
    (hflux : ∃ p : Nat, ij.1 ≤ p ∧ p ≤ ij.2 ∧ env.flux.getD p 0 ≠ 0) :
    ∃ d, doFit env solve lr po 0 grid inputCont dis s st = .ok d ∧
      d.cont.poly.length = (po + 1).toNat ∧
      (∀ a A q, chi2 env grid st idx po ij (fun k => d.out.amps.getD k 0) d.cont.amp (fun k => d.cont.poly.getD k 0) ≤ chi2 env grid st idx po ij a A q) ∧
      (∀ (k i : Nat), idx[k]? = some i → ∃ pe pe', st[i]? = some pe ∧ d.st[i]? = some pe' ∧
        Amp.setAmplitude pe (some (d.out.amps.getD k 0)) (some (d.out.errs.getD k 0)) = .ok pe') ∧
      (∀ j : Nat, j ∉ idx → d.st[j]? = st[j]?) ∧
      (∀ p : Nat, p < env.axis.length → d.spc.cont.getD p 0 = d.cont.amp * grid.getD p 0 + polyVal d.cont.poly (env.axis.getD p 0) ∧
        d.spc.model.getD p 0 = d.spc.cont.getD p 0 ∧ d.spc.noCont.getD p 0 = env.flux.getD p 0 - d.spc.cont.getD p 0) := by
  subst hidx
  obtain ⟨s1, r1, r2, r3⟩ := setCont_spec hs hok.flux ⟨1, 1, []⟩
  have hcont : s1.cont = grid := by
    apply List.ext_getElem (by rw [r2.cont, hs.grid])
    intro p h1 h2
    have := r3 p (by rw [← hs.grid]; exact h2)
    rw [getD_of h1, getD_of h2] at this
    simpa [polyVal] using this
  obtain ⟨o, o1, o2, o3, o4, o5, o6⟩ := linSolve_spec env solve hsolve grid lr po _ st hok hs.grid
    (fun i hi => by rw [← hok.elts]; exact validIndexes_lt.1 i hi) (validIndexes_lt.2) hne hr hn hflux
  set idx := EltList.validIndexes env.es dis with hidx
  have hA : idx.length < o.amps.length := by omega
  obtain ⟨s2, t1, t2, t3⟩ := setCont_spec r2 hok.flux ⟨o.amps[idx.length], 1, o.amps.drop (idx.length + 1)⟩
  refine ⟨⟨SpcModel.initWithContinuum s2, o.st, ⟨o.amps[idx.length], 1, o.amps.drop (idx.length + 1)⟩, o⟩, ?_, ?_, ?_, o6, o5, ?_⟩
  · unfold doFit resetAmp
    rw [r1, Res.bind_ok]
    simp only
    rw [hcont, o1, Res.bind_ok]
    unfold fromFitted
    rw [Res.at_of_lt hA, Res.bind_ok]
    simp only
    rw [t1, Res.bind_ok]
  · simp only [List.length_drop]; omega
  · intro a A q
    have := o4 a A q
    simp only
    have e1 : o.amps.getD idx.length 0 = o.amps[idx.length] := getD_of hA
    have e2 : (fun k => (o.amps.drop (idx.length + 1)).getD k 0) = fun k => o.amps.getD (idx.length + 1 + k) 0 := by
      funext k
      simp only [List.getD_eq_getElem?_getD, List.getElem?_drop]
    rw [e1] at this
    rw [e2]
    exact this
  · intro p hp
    refine ⟨t3 p hp, rfl, ?_⟩
    have q1 : p < s2.cont.length := by rw [t2.cont]; exact hp
    have q2 : p < s2.spc.length := by rw [t2.spc, hok.flux]; exact hp
    show (SpcModel.sub s2.spc s2.cont).getD p 0 = env.flux.getD p 0 - s2.cont.getD p 0
    unfold SpcModel.sub
    rw [getD_of (by simp; omega), List.getElem_zipWith, ← t2.spc, getD_of q1, getD_of q2]

/-! ## The model of the lines after the fit -/

theorem modelAll_emission {pe pe' : Amp.Elt K} (e : EltSup.Elt) (prof : Nat → K → K) (x c c' : K) (hw : Amp.WF pe) (hn : ∀ x ∈ pe.nominal, 0 ≤ x)
    (hl : e.n = pe.lines.length) (hem : pe.isEmission = true) {a : K} (ha : 0 ≤ a) (s : Option K) (h : Amp.setAmplitude pe (some a) s = .ok pe') :
    modelAll e pe'.isEmission (fun k => ⟨(pe'.fa[k]?).getD none, prof k⟩) x c = a * unitFlux e pe prof x c' := by
  rw [modelAll_sum]
  unfold unitFlux
  split
  · rename_i hg
    obtain ⟨q, h1, _, _, _, h2, _⟩ := Amp.C67_set_nan pe (some a) s (Or.inr hg)
    rw [h] at h1; cases h1
    rw [mul_zero]
    apply Finset.sum_eq_zero
    intro k _
    split
    · have : (pe'.fa[k]?).getD none = none := by
        cases hk : pe'.fa[k]? with
        | none => rfl
        | some v => exact h2 v (List.mem_of_getElem? hk)
      rw [this]
      rfl
    · rfl
  · rename_i hg
    have hg : pe.gOutside = false := by simpa using hg
    obtain ⟨q, h1, hsame, _, h2⟩ := Amp.C67_set pe a s hw hg
    rw [h] at h1; cases h1
    have hem' : pe'.isEmission = true := by obtain ⟨f, g, rfl⟩ := hsame; exact hem
    rw [Finset.mul_sum]
    refine Finset.sum_congr rfl fun k hk => ?_
    rw [Finset.mem_range, hl] at hk
    have hkn : k < pe.nominal.length := by rw [hw.nominal]; exact hk
    have hnk : pe.nominal[k]? = some pe.nominal[k] := List.getElem?_eq_getElem _
    obtain ⟨g1, g2⟩ := h2 k _ hnk
    have hkg : k < pe.gOutsideLine.length := by rw [hw.gOutL]; exact hk
    have hok : pe.gOutsideLine[k]? = some pe.gOutsideLine[k] := List.getElem?_eq_getElem _
    cases ho : (e.theo k).out
    · simp only [true_and, if_true]
      cases hgo : pe.gOutsideLine[k]
      · rw [hgo] at hok
        rw [(g2 hok).1, if_pos hok, hem', hnk]
        simp only [Option.getD_some, EltSup.contrib, if_true]
        have hnom := hn _ (List.getElem_mem hkn)
        have hla : ∀ b : K, Amp.lineAmp pe b pe.nominal[k] = b * pe.nominal[k] := by
          intro b
          unfold Amp.lineAmp
          rw [if_neg (by rw [hem]; simp)]
        rw [hla, hla, if_neg (not_lt.2 (mul_nonneg ha hnom))]
        ring
      · rw [hgo] at hok
        rw [(g1 hok).1, if_neg (by rw [hok]; simp), mul_zero]
        rfl
    · simp

/-- **C156** When all the elements are emission lines and no amplitude is negative, the fitted joint model is the one the state gives: at each sample it is the continuum of the model
plus the flux of the lines of the elements. -/
theorem C156_model_partial (env : Env K G) (solve : Solver K) (hsolve : Exact solve) (lr : Range K) (po : Int) (grid inputCont : List K) (dis : List Nat)
    (s : SpcModel.St K) (st : List (Amp.Elt K)) (hok : Ok env st) (hs : SpcOk env grid inputCont s) {idx : List Nat} (hidx : idx = EltList.validIndexes env.es dis)
    (hne : idx ≠ []) {ij : Nat × Nat} (hr : Range.closedIdx lr env.axis = .ok ij) (hn : idx.length + 1 + (po + 1).toNat ≤ ij.2 - ij.1 + 1)
    (hflux : ∃ p : Nat, ij.1 ≤ p ∧ p ≤ ij.2 ∧ env.flux.getD p 0 ≠ 0) (hem : ∀ pe ∈ st, pe.isEmission = true) :
    ∃ d, doFit env solve lr po 0 grid inputCont dis s st = .ok d ∧
      ((∀ k : Nat, k < idx.length → 0 ≤ d.out.amps.getD k 0) → ∀ p : Nat, p < env.axis.length →
        ∃ vs, mapL (colVal env d.st (env.axis.getD p 0) (d.spc.cont.getD p 0)) idx = .ok vs ∧
          d.spc.cont.getD p 0 + vs.sum =
            joint env grid st idx po (fun k => d.out.amps.getD k 0) d.cont.amp (fun k => d.cont.poly.getD k 0) p) := by
  obtain ⟨d, d1, d2, d3, d4, d5, d6⟩ := C156_fit env solve hsolve lr po grid inputCont dis s st hok hs hidx hne hr hn hflux
  refine ⟨d, d1, fun hpos p hp => ?_⟩
  have hval : ∀ (k i : Nat), idx[k]? = some i → colVal env d.st (env.axis.getD p 0) (d.spc.cont.getD p 0) i =
      .ok (d.out.amps.getD k 0 * unitAt { env with cont := grid } st p i) := by
    intro k i hk
    obtain ⟨pe, pe', e1, e2, e3⟩ := d4 k i hk
    have hie : i < env.es.length := by rw [hidx] at hk; exact validIndexes_lt.1 i (List.mem_of_getElem? hk)
    have hpe := List.mem_of_getElem? e1
    unfold colVal
    rw [Res.at_of_lt hie, Res.bind_ok, Res.at_eq_ok.2 e2, Res.bind_ok,
      modelAll_emission env.es[i].sup (env.prof i) _ _ (grid.getD p 0) (hok.wf pe hpe) (hok.nom pe hpe)
        (hok.lines i env.es[i] pe (List.getElem?_eq_getElem hie) e1) (hem pe hpe) (hpos k (List.getElem?_eq_some_iff.1 hk).1) _ e3]
    unfold unitAt
    simp only
    rw [List.getElem?_eq_getElem hie, e1]
  have hmap : mapL (colVal env d.st (env.axis.getD p 0) (d.spc.cont.getD p 0)) idx =
      .ok ((List.range idx.length).map fun k => d.out.amps.getD k 0 * unitAt { env with cont := grid } st p (idx.getD k 0)) := by
    have gen : ∀ (l : List Nat) (f : Nat → K), (∀ (k i : Nat), l[k]? = some i → colVal env d.st (env.axis.getD p 0) (d.spc.cont.getD p 0) i = .ok (f k)) →
        mapL (colVal env d.st (env.axis.getD p 0) (d.spc.cont.getD p 0)) l = .ok ((List.range l.length).map f) := by
      intro l
      induction l with
      | nil => intro f _; rfl
      | cons b l ih =>
        intro f hf
        unfold SvdFit.mapL
        rw [hf 0 b rfl, Res.bind_ok, ih (fun k => f (k + 1)) (fun k i hk => hf (k + 1) i (by simpa using hk)), Res.bind_ok, List.length_cons,
          List.range_succ_eq_map, List.map_cons, List.map_map]
        rfl
    apply gen
    intro k i hk
    rw [hval k i hk, show idx.getD k 0 = i by rw [List.getD_eq_getElem?_getD, hk, Option.getD_some]]
  refine ⟨_, hmap, ?_⟩
  have hsum : ∀ (n : Nat) (g : Nat → K), ((List.range n).map g).sum = ∑ i ∈ Finset.range n, g i := by
    intro n g
    induction n with
    | zero => simp
    | succ n ih => rw [List.range_succ, List.map_append, List.sum_append, Finset.sum_range_succ, ih]; simp
  rw [hsum, (d6 p hp).1]
  unfold joint polyVal
  rw [hsum, d2]
  unfold nPoly
  ring

/-! ## What is refused, what is not set -/

/-- **C156** The requests which are refused: no valid element, no sample of the spectrum in the lambda range, fewer samples than parameters. A flux which is null
over the range has no normalisation. -/
theorem C156_refused (env : Env K G) (solve : Solver K) (lr : Range K) (po : Int) (grid inputCont : List K) (dis : List Nat)
    (s : SpcModel.St K) (st : List (Amp.Elt K)) (hok : Ok env st) (hs : SpcOk env grid inputCont s) :
    (EltList.validIndexes env.es dis = [] → doFit env solve lr po 0 grid inputCont dis s st = .throw .EMPTY_LIST) ∧
    (EltList.validIndexes env.es dis ≠ [] →
      (∀ e, Range.closedIdx lr env.axis = .throw e → doFit env solve lr po 0 grid inputCont dis s st = .throw e) ∧
      ∀ ij, Range.closedIdx lr env.axis = .ok ij →
        (ij.2 - ij.1 + 1 < (EltList.validIndexes env.es dis).length + 1 + (po + 1).toNat →
          doFit env solve lr po 0 grid inputCont dis s st = .throw .LESS_OBSERVED_SAMPLES_THAN_AMPLITUDES_TO_FIT) ∧
        ((EltList.validIndexes env.es dis).length + 1 + (po + 1).toNat ≤ ij.2 - ij.1 + 1 →
          (∀ p : Nat, ij.1 ≤ p → p ≤ ij.2 → env.flux.getD p 0 = 0) → doFit env solve lr po 0 grid inputCont dis s st = .ub)) := by
  obtain ⟨s1, r1, r2, r3⟩ := setCont_spec hs hok.flux ⟨1, 1, []⟩
  have hd : ∀ r, linSolve env solve s1.cont lr po (EltList.validIndexes env.es dis) st = r → (∀ o, r ≠ .ok o) →
      doFit env solve lr po 0 grid inputCont dis s st = (r >>= fun _ => .ub) := by
    intro r hr hno
    unfold doFit resetAmp
    rw [r1, Res.bind_ok]
    simp only
    rw [hr]
    cases r with
    | ok o => exact absurd rfl (hno o)
    | throw e => rfl
    | ub => rfl
  refine ⟨fun h => ?_, fun hne => ⟨fun e he => ?_, fun ij hij => ⟨fun hlt => ?_, fun hle hz => ?_⟩⟩⟩
  · exact hd (.throw .EMPTY_LIST) (by unfold linSolve; rw [h]; rfl) (fun o => by simp)
  all_goals
    have hl : 1 ≤ (EltList.validIndexes env.es dis).length := List.length_pos_of_ne_nil hne
  · exact hd (.throw e) (by unfold linSolve; rw [if_neg (by omega), he]; rfl) (fun o => by simp)
  · exact hd (.throw .LESS_OBSERVED_SAMPLES_THAN_AMPLITUDES_TO_FIT)
      (by unfold linSolve; rw [if_neg (by omega), hij, Res.bind_ok, if_pos (by unfold nddl nPoly; omega)]) (fun o => by simp)
  · refine hd .ub ?_ (fun o => by simp)
    obtain ⟨b1, b2, -⟩ := (C03_closed lr env.axis hok.axis).1 ij.1 ij.2 hij
    obtain ⟨mx, m1, m2, p, m3, m4, m5⟩ := maxAbs_spec env.flux ij.1 ij.2 b1 (by rw [hok.flux]; exact b2)
    rw [hz p m3 m4, abs_zero] at m5
    subst m5
    obtain ⟨st1, s1, -⟩ := SvdFit.setMany_total ((EltList.validIndexes env.es dis).map fun i => (i, (some 1 : Option K), (some 0 : Option K))) st
      (by simpa [Function.comp_def] using validIndexes_lt.2)
      (by intro v hv; obtain ⟨i, hi, rfl⟩ := List.mem_map.1 hv; rw [← hok.elts]; exact validIndexes_lt.1 i hi) hok.wf
    unfold linSolve
    rw [if_neg (by omega), hij, Res.bind_ok, if_neg (by unfold nddl nPoly; omega), SvdFit.foldL_setMany, s1, Res.bind_ok, m1, Res.bind_ok, if_pos rfl]

/-- **C156** The error of the amplitude of the continuum is never the fitted one: after every fit it is 1. -/
theorem C156_continuum_error {env : Env K G} {solve : Solver K} {lr : Range K} {po : Int} {alpha : K} {grid inputCont : List K} {dis : List Nat}
    {s : SpcModel.St K} {st : List (Amp.Elt K)} {d : Done K} (h : doFit env solve lr po alpha grid inputCont dis s st = .ok d) : d.cont.err = 1 := by
  unfold doFit resetAmp setCont at h
  obtain ⟨r, h1, h⟩ := Res.bind_eq_ok.1 h
  obtain ⟨s1, h2, h1⟩ := Res.bind_eq_ok.1 h1
  cases h1
  obtain ⟨o, h3, h⟩ := Res.bind_eq_ok.1 h
  obtain ⟨q, h4, h⟩ := Res.bind_eq_ok.1 h
  cases h
  unfold fromFitted setCont at h4
  obtain ⟨a, h5, h4⟩ := Res.bind_eq_ok.1 h4
  obtain ⟨s2, h6, h4⟩ := Res.bind_eq_ok.1 h4
  cases h4
  rfl

/-! ## Examples -/

open SvdFit (exElt exPar solve2)

/-- One emission line of profile 1 on samples 1 and 2 of five, with a flat template; the flux is 3 times the template plus 5 times the line. -/
def exEnv : Env ℚ Nat := ⟨[exElt 1 2], fun _ _ x => if x = 1 ∨ x = 2 then 1 else 0, [0, 1, 2, 3, 4], [], [6, 11, 11, 6, 6], [1, 1, 2, 2, 1], false, 0, id, fun _ => []⟩

/-- The model of the spectrum before the fit. -/
def exSpc : SpcModel.St ℚ := ⟨[0, 1, 2, 3, 4], [6, 11, 11, 6, 6], [0, 0, 0, 0, 0], [0, 0, 0, 0, 0], [0, 0, 0, 0, 0], false⟩

theorem exOk : Ok exEnv [exPar] := by
  refine ⟨by simp only [exEnv]; decide +kernel, rfl, rfl, by decide +kernel, rfl, ?_, ?_, ?_⟩
  · intro pe hpe
    simp only [List.mem_cons, List.not_mem_nil, or_false] at hpe
    subst hpe
    exact ⟨rfl, rfl, rfl, rfl, rfl⟩
  · intro pe hpe x hx
    simp only [List.mem_cons, List.not_mem_nil, or_false] at hpe
    subst hpe
    simp only [exPar, List.mem_cons, List.not_mem_nil, or_false] at hx
    subst hx
    norm_num
  · intro i e pe h1 h2
    match i with
    | 0 => simp only [exEnv, List.getElem?_cons_zero, Option.some.injEq] at h1 h2; subst h1; subst h2; rfl
    | n + 1 => simp at h2

theorem exSpcOk : SpcOk exEnv [2, 2, 2, 2, 2] [0, 0, 0, 0, 0] exSpc := ⟨rfl, rfl, rfl, rfl, rfl, rfl⟩

/-- The hypotheses of C156 hold for it. -/
example : EltList.validIndexes exEnv.es [] = [0] ∧ Range.closedIdx ⟨0, 4⟩ exEnv.axis = .ok (0, 4) ∧ 1 + 1 + ((-1 : Int) + 1).toNat ≤ 4 - 0 + 1 ∧
    (∃ p : Nat, 0 ≤ p ∧ p ≤ 4 ∧ exEnv.flux.getD p 0 ≠ 0) ∧ (∀ pe ∈ [exPar], pe.isEmission = true) ∧ ∃ solve : Solver ℚ, Exact solve :=
  ⟨by decide +kernel, by decide +kernel, by decide, ⟨0, by omega, by omega, by decide +kernel⟩, by decide, SvdFit.exact_exists⟩

/-- The fit finds the line and the template. -/
example : ((doFit exEnv solve2 ⟨0, 4⟩ (-1) 0 [2, 2, 2, 2, 2] [0, 0, 0, 0, 0] [] exSpc [exPar]).bind fun d => .ok (d.st.map (·.fa), d.cont, d.spc.cont)) =
    .ok ([[some 5]], ⟨3, 1, []⟩, [6, 6, 6, 6, 6]) := by decide +kernel

/-- An absorption line. -/
def exAbs : Amp.Elt ℚ := { exPar with isEmission := false, absLimit := -1 }

/-- The flux is 2 times the template (flat, 1) with a line that absorbs a quarter of it. -/
def exAbsEnv : Env ℚ Nat := { exEnv with flux := [2, 3 / 2, 3 / 2, 2, 2] }

/-- The chi-square of the continuum of the model with the lines of the element. -/
def stateChi2 (env : Env ℚ Nat) (d : Done ℚ) : Res ℚ :=
  (mapL (fun p => colVal env d.st (env.axis.getD p 0) (d.spc.cont.getD p 0) 0 >>= fun v => .ok (((env.flux.getD p 0 - d.spc.cont.getD p 0 - v) / env.err.getD p 0) ^ 2))
    (List.range env.axis.length)).bind fun l => .ok l.sum

/-- **C156 counterexample** With an absorption line the fitted amplitude is relative to the template of amplitude 1, the model applies it to the fitted continuum: this fit has a
null chi-square, and the model it leaves does not fit, when the amplitude 1/4 gives a null chi-square. -/
theorem C156_absorption_counterexample :
    ((doFit exAbsEnv solve2 ⟨0, 4⟩ (-1) 0 [1, 1, 1, 1, 1] [0, 0, 0, 0, 0] [] { exSpc with spc := exAbsEnv.flux } [exAbs]).bind fun d =>
      (stateChi2 exAbsEnv d).bind fun x => (setAmp 0 (some (1 / 4)) none d.st).bind fun st => (stateChi2 exAbsEnv { d with st := st }).bind fun y =>
      .ok (d.st.map (·.fa), d.cont.amp, chi2 exAbsEnv [1, 1, 1, 1, 1] [exAbs] [0] (-1) (0, 4) (fun k => d.out.amps.getD k 0) d.cont.amp (fun k => d.cont.poly.getD k 0), x, y)) =
    .ok ([[some (1 / 2)]], 2, 0, 5 / 16, 0) := by decide +kernel

/-- **C156 counterexample** With a negative amplitude the line is not in the model: the fitted amplitude of this line is -1, with a null chi-square, but the model is the
continuum alone. -/
theorem C156_negative_counterexample :
    ((doFit { exEnv with flux := [6, 5, 5, 6, 6] } solve2 ⟨0, 4⟩ (-1) 0 [2, 2, 2, 2, 2] [0, 0, 0, 0, 0] [] { exSpc with spc := [6, 5, 5, 6, 6] } [exPar]).bind fun d =>
      (stateChi2 { exEnv with flux := [6, 5, 5, 6, 6] } d).bind fun x =>
      .ok (d.st.map (·.fa), d.cont.amp,
        chi2 { exEnv with flux := [6, 5, 5, 6, 6] } [2, 2, 2, 2, 2] [exPar] [0] (-1) (0, 4) (fun k => d.out.amps.getD k 0) d.cont.amp (fun k => d.cont.poly.getD k 0), x)) =
    .ok ([[some (-1)]], 3, 0, 5 / 4) := by decide +kernel

end SvdLc
end Amazed
