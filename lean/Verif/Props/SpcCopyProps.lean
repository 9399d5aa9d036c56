import Verif.Model.SpcCopy
import Verif.Props.ContinuumProps

/-! # C178, C179 : copies of a spectrum, and the spectra a template fit uses -/

set_option linter.unusedSectionVars false
set_option linter.unusedVariables false

namespace Amazed
namespace SpcCopy
open Continuum

section
variable {K L P : Type} [Field K] [LinearOrder K] [IsStrictOrderedRing K]

/-! ## Specification -/

/-- Two spectra a caller cannot tell apart by reading them: the same axis and parameters, the same selected component, the
same answer of every flux getter whatever component is selected, and the same attached data. -/
structure SameReadings (med : List K → List K → K → Bool → Res (List K)) (s t : Full K L P) : Prop where
  axis : t.spc.axis = s.spc.axis
  raw : getRaw t.spc = getRaw s.spc
  cont : (getCont med t.spc).2 = (getCont med s.spc).2
  nocont : (getNoCont med t.spc).2 = (getNoCont med s.spc).2
  type : t.spc.type = s.spc.type
  flux : ∀ u, (getFlux med { t.spc with type := u }).2 = (getFlux med { s.spc with type := u }).2
  method : t.spc.method = s.spc.method
  win : t.spc.win = s.spc.win
  even : t.spc.even = s.spc.even
  name : t.name = s.name
  obsId : t.obsId = s.obsId
  rebin : t.rebin = s.rebin
  lsf : t.lsf = s.lsf
  phot : t.phot = s.phot

/-- A spectrum whose selected flux can be read, has the size of the axis, and whose axis is neither empty nor unsorted. -/
def Readable (med : List K → List K → K → Bool → Res (List K)) (s : Full K L P) : Prop :=
  ∃ f, (getFlux med s.spc).2 = .ok f ∧ f.length = s.spc.axis.length ∧ s.spc.axis ≠ [] ∧
    (SAxis.ofList s.spc.axis).isSorted.1 = true

variable (med : List K → List K → K → Bool → Res (List K))

theorem sameReadings_refl (s : Full K L P) : SameReadings med s s :=
  ⟨rfl, rfl, rfl, rfl, rfl, fun _ => rfl, rfl, rfl, rfl, rfl, rfl, rfl, rfl, rfl⟩

theorem lazy_removed {s : Spc K} (h : s.removed = true) : lazy med s = (s, .ok ()) := by
  unfold lazy; rw [if_pos h]

/-- The getters do not depend on the selected component. -/
theorem lazy_type (s : Spc K) (u : FluxType) :
    (lazy med { s with type := u }).2 = (lazy med s).2 ∧
    (lazy med { s with type := u }).1 = { (lazy med s).1 with type := u } := by
  unfold lazy
  cases hr : s.removed with
  | true => simp only [if_true, hr, and_self]
  | false =>
    simp only [Bool.false_eq_true, if_false]
    unfold estimate fill reset
    dsimp only
    repeat' split
    all_goals first
      | exact ⟨rfl, rfl⟩
      | simp_all

theorem same_of_lazy {s : Full K L P} (h : (lazy med s.spc).2 = .ok ()) :
    SameReadings med s { s with spc := (lazy med s.spc).1, path := "" } := by
  have hr := lazy_ok med h
  obtain ⟨k1, k2, k3, k4, k5, k6⟩ := lazy_keeps med s.spc
  have hl := lazy_removed med hr
  have c1 : (getCont med (lazy med s.spc).1).2 = (getCont med s.spc).2 := by
    unfold getCont; rw [hl]; simp only [h, Res.bind_ok]
  have c2 : (getNoCont med (lazy med s.spc).1).2 = (getNoCont med s.spc).2 := by
    unfold getNoCont; rw [hl]; simp only [h, Res.bind_ok]
  refine ⟨k2, k1, c1, c2, k3, ?_, k4, k5, k6, rfl, rfl, rfl, rfl, rfl⟩
  intro u
  cases u with
  | raw => unfold getFlux getRaw; simp only [k1]
  | continuumOnly =>
    unfold getFlux getCont
    dsimp only
    obtain ⟨a1, a2⟩ := lazy_type med s.spc .continuumOnly
    obtain ⟨b1, b2⟩ := lazy_type med (lazy med s.spc).1 .continuumOnly
    rw [a1, a2, b1, b2, hl]
    simp only [h, Res.bind_ok]
  | noContinuum =>
    unfold getFlux getNoCont
    dsimp only
    obtain ⟨a1, a2⟩ := lazy_type med s.spc .noContinuum
    obtain ⟨b1, b2⟩ := lazy_type med (lazy med s.spc).1 .noContinuum
    rw [a1, a2, b1, b2, hl]
    simp only [h, Res.bind_ok]

theorem getFlux_state {s : Spc K} {f : List K} (h : (getFlux med s).2 = .ok f) :
    (s.type = .raw ∧ (getFlux med s).1 = s) ∨
      ((lazy med s).2 = .ok () ∧ (getFlux med s).1 = (lazy med s).1) := by
  unfold getFlux at h ⊢
  cases ht : s.type with
  | raw => exact Or.inl ⟨rfl, rfl⟩
  | continuumOnly =>
    rw [ht] at h
    refine Or.inr ⟨?_, rfl⟩
    obtain ⟨u, hu, _⟩ := Res.bind_eq_ok.1 h
    exact hu
  | noContinuum =>
    rw [ht] at h
    refine Or.inr ⟨?_, rfl⟩
    obtain ⟨u, hu, _⟩ := Res.bind_eq_ok.1 h
    exact hu

/-! ## C178: copies -/

/-- C178 (copy construction): a copy reads exactly like the original, component by component and for every attached datum;
only the path is not copied. With the raw component selected it is the same object in every other member. A copy is made
exactly when the spectrum can be read; the selected component that has a wrong size, an empty axis or an unsorted axis are
refused. -/
theorem C178_copy (s : Full K L P) :
    (∀ t, copy med s = .ok t → SameReadings med s t ∧ t.path = "" ∧
      (s.spc.type = .raw → t = { s with path := "" })) ∧
    ((∃ t, copy med s = .ok t) ↔ Readable med s) ∧
    (∀ e, copy med s = .throw e → (getFlux med s.spc).2 = .throw e ∨
      (e = .INVALID_SPECTRUM ∧ ∃ f, (getFlux med s.spc).2 = .ok f ∧ (f.length ≠ s.spc.axis.length ∨ s.spc.axis = [] ∨
        (SAxis.ofList s.spc.axis).isSorted.1 = false))) ∧
    (copy med s = .ub → (getFlux med s.spc).2 = .ub) := by
  obtain ⟨k1, k2, k3, k4⟩ := getFlux_keeps med s.spc
  unfold copy Readable
  generalize hg : getFlux med s.spc = g at k1 k2 k3 k4
  obtain ⟨s', r⟩ := g
  cases r with
  | throw e =>
    refine ⟨fun t h => (nomatch h), ⟨fun ⟨t, h⟩ => (nomatch h), fun ⟨f, h, _⟩ => (nomatch h)⟩, fun e' h => ?_, fun h => (nomatch h)⟩
    cases h
    exact Or.inl rfl
  | ub =>
    exact ⟨fun t h => (nomatch h), ⟨fun ⟨t, h⟩ => (nomatch h), fun ⟨f, h, _⟩ => (nomatch h)⟩, fun e' h => (nomatch h), fun _ => rfl⟩
  | ok f =>
    dsimp only at k1 k2 k3 k4 ⊢
    have hv : validWith s' f = true ↔ f.length = s.spc.axis.length ∧ s.spc.axis ≠ [] ∧
        (SAxis.ofList s.spc.axis).isSorted.1 = true := by
      unfold validWith
      rw [k2]
      simp only [Bool.and_eq_true, decide_eq_true_eq]
      constructor
      · rintro ⟨⟨a, b⟩, c⟩; exact ⟨a.symm, b, c⟩
      · rintro ⟨a, b, c⟩; exact ⟨⟨a.symm, b⟩, c⟩
    have hs : (getFlux med s.spc).2 = .ok f := by rw [hg]
    have hst := getFlux_state med hs
    rw [hg] at hst
    dsimp only at hst
    refine ⟨fun t h => ?_, ⟨fun ⟨t, h⟩ => ?_, fun ⟨f', hf', h⟩ => ?_⟩, fun e h => ?_, fun h => ?_⟩
    · have hvt : validWith s' f ≠ false := fun c => by rw [if_pos c] at h; cases h
      rw [if_neg hvt] at h
      cases h
      refine ⟨?_, rfl, ?_⟩
      · rcases hst with ⟨_, e⟩ | ⟨e1, e2⟩
        · rw [e]; exact ⟨rfl, rfl, rfl, rfl, rfl, fun _ => rfl, rfl, rfl, rfl, rfl, rfl, rfl, rfl, rfl⟩
        · rw [e2]; exact same_of_lazy med e1
      · intro ht
        have : s' = s.spc := by
          have : getFlux med s.spc = (s.spc, .ok s.spc.raw) := by unfold getFlux getRaw; rw [ht]
          rw [hg] at this
          exact congrArg Prod.fst this
        rw [this]
    · have hvt : validWith s' f ≠ false := fun c => by rw [if_pos c] at h; cases h
      exact ⟨f, rfl, hv.1 (by simpa using hvt)⟩
    · cases hf'
      rw [if_neg (by rw [hv.2 h]; decide)]
      exact ⟨_, rfl⟩
    · by_cases c : validWith s' f = false
      · rw [if_pos c] at h
        cases h
        refine Or.inr ⟨rfl, f, rfl, ?_⟩
        apply Classical.byContradiction
        intro hn
        rw [not_or, not_or] at hn
        have := hv.2 ⟨Classical.not_not.1 hn.1, hn.2.1, by simpa using hn.2.2⟩
        rw [this] at c; cases c
      · rw [if_neg c] at h; cases h
    · split at h <;> cases h

/-- C178 (assignment), partial: after an assignment the target reads like the source in its axis, its components, its
selection, its parameters, its name, its resampling method and its line spread function; the identifier of the observation
and the photometric data are left as they were. Missing for the full claim: these two, see the counterexample. -/
theorem C178_assign_partial (t s : Full K L P) :
    SameReadings med { s with obsId := t.obsId, phot := t.phot } (assign t s) ∧
    (assign t s).obsId = t.obsId ∧ (assign t s).phot = t.phot ∧ (assign t s).path = t.path ∧
    (SameReadings med s (assign t s) ↔ t.obsId = s.obsId ∧ t.phot = s.phot) := by
  refine ⟨⟨rfl, rfl, rfl, rfl, rfl, fun _ => rfl, rfl, rfl, rfl, rfl, rfl, rfl, rfl, rfl⟩, rfl, rfl, rfl, ?_⟩
  constructor
  · intro h; exact ⟨h.obsId, h.phot⟩
  · intro h; exact ⟨rfl, rfl, rfl, rfl, rfl, fun _ => rfl, rfl, rfl, rfl, rfl, h.1, rfl, rfl, h.2⟩

/-- C178 (masked copy): the identity of the spectrum and its attached data are kept; only the samples change, and they are the
samples the mask keeps. -/
theorem C178_masked (s t : Full K L P) (m : List K) (h : masked s m = .ok t) :
    t.name = s.name ∧ t.obsId = s.obsId ∧ t.lsf = s.lsf ∧ t.phot = s.phot ∧ t.rebin = s.rebin ∧ t.path = "" ∧
    t.spc.type = s.spc.type ∧ t.spc.method = s.spc.method ∧ t.spc.win = s.spc.win ∧ t.spc.even = s.spc.even ∧
    t.spc.removed = s.spc.removed ∧
    maskVector m s.spc.axis = .ok t.spc.axis ∧ maskVector m s.spc.raw = .ok t.spc.raw ∧
    (s.spc.removed = true → maskVector m s.spc.cont = .ok t.spc.cont ∧ maskVector m s.spc.nocont = .ok t.spc.nocont) := by
  unfold masked maskCopy at h
  cases ha : maskVector m s.spc.axis with
  | throw e => rw [ha] at h; simp at h
  | ub => rw [ha] at h; simp at h
  | ok a =>
    cases hb : maskVector m s.spc.raw with
    | throw e => rw [ha, hb] at h; simp at h
    | ub => rw [ha, hb] at h; simp at h
    | ok r =>
      rw [ha, hb] at h
      dsimp only at h
      cases hr : s.spc.removed with
      | false =>
        rw [hr, if_neg (by decide)] at h
        cases h
        exact ⟨rfl, rfl, rfl, rfl, rfl, rfl, rfl, rfl, rfl, rfl, rfl, rfl, rfl, fun c => by cases c⟩
      | true =>
        rw [hr, if_pos rfl] at h
        cases hc : maskVector m s.spc.cont with
        | throw e => rw [hc] at h; simp at h
        | ub => rw [hc] at h; simp at h
        | ok c =>
          cases hw : maskVector m s.spc.nocont with
          | throw e => rw [hc, hw] at h; simp at h
          | ub => rw [hc, hw] at h; simp at h
          | ok w =>
            rw [hc, hw] at h
            cases h
            exact ⟨rfl, rfl, rfl, rfl, rfl, rfl, rfl, rfl, rfl, rfl, rfl, rfl, rfl, fun _ => ⟨rfl, rfl⟩⟩

/-- C178 (extraction of a range of samples), partial: the raw samples, the name, the line spread function and the parameters of
the continuum are those of the original. Missing for the full claim: the component selected, the identifier of the observation,
the photometric data and the resampling method are those of a new spectrum, whatever the original. -/
theorem C178_extract_partial (s t : Full K L P) (i j : Nat) (h : extract s i j = .ok t) :
    (∀ k, k ≤ j - i → t.spc.axis[k]? = s.spc.axis[i + k]? ∧ t.spc.raw[k]? = s.spc.raw[i + k]?) ∧
    t.spc.axis.length = min (j - i + 1) (s.spc.axis.length - i) ∧ t.spc.raw.length = t.spc.axis.length ∧
    t.name = s.name ∧ t.lsf = s.lsf ∧ t.spc.method = s.spc.method ∧ t.spc.win = s.spc.win ∧ t.spc.even = s.spc.even ∧
    t.spc.type = .raw ∧ t.spc.removed = false ∧ t.obsId = "" ∧ t.phot = none ∧ t.rebin = "lin" := by
  unfold extract make at h
  obtain ⟨u, hu, h⟩ := Res.bind_eq_ok.1 h
  obtain ⟨v, hv, hu⟩ := Res.bind_eq_ok.1 hu
  have hinv := (inv_make hv).1
  unfold Continuum.make at hv
  split at hv
  · cases hv
  · cases hv
    cases hu
    cases h
    dsimp only at hinv ⊢
    refine ⟨?_, ?_, hinv, rfl, rfl, rfl, rfl, rfl, rfl, rfl, rfl, rfl, rfl⟩
    · intro k hk
      unfold slice
      constructor <;>
      · rw [List.getElem?_take, if_pos (by omega), List.getElem?_drop]
    · unfold slice; rw [List.length_take, List.length_drop]

end

/-- The median used by the examples is not reached. -/
def noMed : List ℚ → List ℚ → ℚ → Bool → Res (List ℚ) := fun _ _ _ _ => .ub

/-- A spectrum of two samples. -/
def demo : Full ℚ Nat Nat := ⟨⟨[1, 2], [3, 4], [], [], false, "zero", 150, true, .noContinuum⟩, "n", "o1", "/a", "spline", some 7, some 9⟩

/-- Another. -/
def other : Full ℚ Nat Nat := ⟨⟨[1, 2, 3], [5, 6, 7], [], [], false, "raw", 150, true, .raw⟩, "m", "o2", "/b", "lin", none, some 8⟩

example : copy noMed demo = .ok { demo with spc := ⟨[1, 2], [3, 4], [0, 0], [3, 4], true, "zero", 150, true, .noContinuum⟩, path := "" } := by
  decide +kernel

/-- C178 (counterexample for the assignment): the photometric data and the observation of the source are not there, so an
object assigned from a spectrum does not read like the spectrum. -/
theorem C178_assign_counterexample :
    (assign other demo).spc = demo.spc ∧ (assign other demo).obsId = "o2" ∧ (assign other demo).phot = some 8 ∧
    ¬ SameReadings noMed demo (assign other demo) := by
  refine ⟨rfl, rfl, rfl, fun h => ?_⟩
  have := h.obsId
  revert this
  decide +kernel

/-- C178 (counterexample for the extraction): the flux read from an extraction of the whole of a spectrum is not the flux read
from the spectrum. -/
theorem C178_extract_counterexample : ∃ t : Full ℚ Nat Nat, ∃ s : Full ℚ Nat Nat,
    extract s 0 1 = .ok t ∧ s.spc.axis.length = 2 ∧ (getFlux noMed s.spc).2 = .ok [0, 0] ∧ (getFlux noMed t.spc).2 = .ok [3, 4] :=
  ⟨⟨⟨[1, 2], [3, 4], [], [], false, "raw", 150, true, .raw⟩, "n", "", "", "lin", none, none⟩,
    ⟨⟨[1, 2], [3, 4], [], [], false, "raw", 150, true, .noContinuum⟩, "n", "o", "/a", "lin", none, none⟩,
    by decide +kernel, rfl, by decide +kernel, by decide +kernel⟩

example : masked demo [1, 0] = .ok { demo with spc := { demo.spc with axis := [1], raw := [3] }, path := "" } := by
  decide +kernel

/-! ## C179: the spectra a template fit uses -/

section
variable {K L P : Type} [Field K] [LinearOrder K] [IsStrictOrderedRing K]

theorem saveModels_not_mem {M : Type} : ∀ (l : List (Full K L P × M)) (m : String → Option M) (k : String),
    (∀ x ∈ l, x.1.obsId ≠ k) → saveModels l m k = m k
  | [], _, _, _ => rfl
  | (s, x) :: r, m, k, h => by
    have e : saveModels ((s, x) :: r) m = saveModels r (addModel m s.obsId x) := rfl
    rw [e, saveModels_not_mem r _ k fun y hy => h y (List.mem_cons_of_mem _ hy)]
    unfold addModel
    rw [if_neg (fun c => h (s, x) (List.mem_cons_self ..) c.symm)]

/-- The model kept for an observation is the one of the last spectrum with this identifier. -/
theorem saveModels_last {M : Type} (l l' : List (Full K L P × M)) (s : Full K L P) (x : M) (m : String → Option M)
    (h : ∀ y ∈ l', y.1.obsId ≠ s.obsId) : saveModels (l ++ (s, x) :: l') m s.obsId = some x := by
  induction l generalizing m with
  | nil =>
    show saveModels l' (addModel m s.obsId x) s.obsId = some x
    rw [saveModels_not_mem l' _ _ h]
    unfold addModel; rw [if_pos rfl]
  | cons a r ih =>
    obtain ⟨b, y⟩ := a
    exact ih _

/-- C179, partial: with the plain operator, whatever was selected before and whatever the number of observations, the spectra
fitted are the inputs with the component selected for this fit, nothing else changed, and if the observations have distinct
identifiers the saved models are exactly one for each, under its identifier. Missing for the full claim: the operator on log
grids, see the next theorems. -/
theorem C179_plain_partial {M : Type} (c : Context K L P) (t : FluxType) :
    (∃ ss, fitted Operator.plain (select c t) = .ok ss ∧ ss.length = c.spectra.length ∧
      (∀ (i : Nat) (s s' : Full K L P), c.spectra[i]? = some s → ss[i]? = some s' →
        s'.spc.type = t ∧ s' = { s with spc := { s.spc with type := t } } ∧ s'.obsId = s.obsId) ∧
      (∀ ms : List M, ms.length = ss.length → (c.spectra.map (·.obsId)).Nodup →
        (∀ (i : Nat) (s : Full K L P) (x : M), c.spectra[i]? = some s → ms[i]? = some x →
          saveModels (ss.zip ms) (fun _ => none) s.obsId = some x) ∧
        (∀ k, (∀ s ∈ c.spectra, s.obsId ≠ k) → saveModels (ss.zip ms) (fun _ => none) k = none))) := by
  refine ⟨c.spectra.map fun s => { s with spc := { s.spc with type := t } }, rfl, List.length_map .., ?_, ?_⟩
  · intro i s s' h h'
    rw [List.getElem?_map, h] at h'
    cases h'
    exact ⟨rfl, rfl, rfl⟩
  · intro ms hm hn
    constructor
    · intro i s x hs hx
      generalize hss : (c.spectra.map fun s => ({ s with spc := { s.spc with type := t } } : Full K L P)) = ss
      have hids : ss.map (·.obsId) = c.spectra.map (·.obsId) := by
        rw [← hss, List.map_map]; rfl
      rw [← hids] at hn
      have hz : (ss.zip ms)[i]? = some ({ s with spc := { s.spc with type := t } }, x) := by
        rw [List.getElem?_zip_eq_some]
        refine ⟨?_, hx⟩
        rw [← hss, List.getElem?_map, hs]; rfl
      obtain ⟨hi, hz⟩ := List.getElem?_eq_some_iff.1 hz
      have hsplit : ss.zip ms = (ss.zip ms).take i ++ ({ s with spc := { s.spc with type := t } }, x) :: (ss.zip ms).drop (i + 1) := by
        rw [← hz, List.getElem_cons_drop, List.take_append_drop]
      rw [hsplit]
      refine saveModels_last _ _ { s with spc := { s.spc with type := t } } x _ ?_
      intro y hy hc
      obtain ⟨k, hk⟩ := List.mem_iff_getElem?.1 hy
      rw [List.getElem?_drop] at hk
      have hk' := (List.getElem?_zip_eq_some.1 hk).1
      have hi' : ss[i]? = some { s with spc := { s.spc with type := t } } := by
        rw [← hss, List.getElem?_map, hs]; rfl
      have e1 : (ss.map (·.obsId))[i]? = some s.obsId := by rw [List.getElem?_map, hi']; rfl
      have e2 : (ss.map (·.obsId))[i + 1 + k]? = some s.obsId := by
        rw [List.getElem?_map, hk']; simp only [Option.map_some]; rw [hc]
      have hlt : i < (ss.map (·.obsId)).length := (List.getElem?_eq_some_iff.1 e1).1
      have := (List.getElem?_inj hlt hn).1 (e1.trans e2.symm)
      omega
    · intro k hk
      rw [saveModels_not_mem]
      rintro ⟨s, x⟩ hx
      have := List.of_mem_zip hx |>.1
      obtain ⟨s0, hs0, rfl⟩ := List.mem_map.1 this
      exact hk s0 hs0

theorem maskAll_mem : ∀ (ss : List (Full K L P)) (ms : List (List K)) (r : List (Full K L P)), maskAll ss ms = .ok r →
    ∀ x ∈ r, ∃ s ∈ ss, ∃ m ∈ ms, masked s m = .ok x
  | [], [], r, h => by cases h; intro x hx; cases hx
  | [], _ :: _, r, h => by cases h; intro x hx; cases hx
  | _ :: _, [], r, h => by cases h; intro x hx; cases hx
  | s :: ss, m :: ms, r, h => by
    have e : maskAll (s :: ss) (m :: ms) = masked s m >>= fun x => maskAll ss ms >>= fun xs => .ok (x :: xs) := rfl
    rw [e] at h
    obtain ⟨x, hx, h⟩ := Res.bind_eq_ok.1 h
    obtain ⟨xs, hxs, h⟩ := Res.bind_eq_ok.1 h
    cases h
    intro y hy
    rcases List.mem_cons.1 hy with rfl | hy
    · exact ⟨s, List.mem_cons_self .., m, List.mem_cons_self .., hx⟩
    · obtain ⟨s', h1, m', h2, h3⟩ := maskAll_mem ss ms xs hxs y hy
      exact ⟨s', List.mem_cons_of_mem _ h1, m', List.mem_cons_of_mem _ h2, h3⟩

/-- A spectrum of the operator on log grids: the raw component, no identifier, no photometric data, no continuum method. -/
theorem log_facts (ss : List (Full K L P)) (new : List (List K × List K × K × Bool)) (t : FluxType) (o : Operator K)
    (ho : o = .log ∨ ∃ ms, o = .logSub ms) (r : List (Full K L P)) (h : fitted o (select (resample ss new) t) = .ok r) :
    ∀ s ∈ r, s.spc.type = .raw ∧ s.obsId = "" ∧ s.phot = none ∧ s.spc.method = "" ∧ s.spc.removed = false := by
  have base : ∀ s ∈ (resample ss new).rebinned,
      s.spc.type = .raw ∧ s.obsId = "" ∧ s.phot = none ∧ s.spc.method = "" ∧ s.spc.removed = false := by
    intro s hs
    unfold resample at hs
    dsimp only at hs
    obtain ⟨i, hi⟩ := List.mem_iff_getElem?.1 hs
    rw [List.getElem?_zipWith] at hi
    cases ha : ss[i]? with
    | none => rw [ha] at hi; cases hi
    | some a =>
      cases hb : new[i]? with
      | none => rw [ha, hb] at hi; cases hi
      | some b => rw [ha, hb] at hi; cases hi; exact ⟨rfl, rfl, rfl, rfl, rfl⟩
  rcases ho with rfl | ⟨ms, rfl⟩
  · have : r = (resample ss new).rebinned := by
      have e : fitted Operator.log (select (resample ss new) t) = .ok (resample ss new).rebinned := rfl
      rw [e] at h; cases h; rfl
    rw [this]; exact base
  · have e : fitted (Operator.logSub ms) (select (resample ss new) t) = maskAll (resample ss new).rebinned ms := rfl
    rw [e] at h
    intro x hx
    obtain ⟨s, hs, m, _, hm⟩ := maskAll_mem _ _ _ h x hx
    obtain ⟨b1, b2, b3, b4, b5⟩ := base s hs
    obtain ⟨_, h2, _, h4, _, _, h7, h8, _, _, h11, _⟩ := C178_masked s x m hm
    exact ⟨h7.trans b1, h2.trans b2, h4.trans b3, h8.trans b4, h11.trans b5⟩

/-- C179 (what the operator on log grids fits): whatever the component selected, each of its spectra is read raw, has no
identifier of an observation and no photometric data; asking one for its continuum or its continuum-subtracted flux throws,
because the resampled spectrum has no estimation method. -/
theorem C179_log (med : List K → List K → K → Bool → Res (List K)) (ss : List (Full K L P))
    (new : List (List K × List K × K × Bool)) (t : FluxType) (o : Operator K)
    (ho : o = .log ∨ ∃ ms, o = .logSub ms) (r : List (Full K L P)) (h : fitted o (select (resample ss new) t) = .ok r) :
    ∀ s ∈ r, s.spc.type = .raw ∧ (getFlux med s.spc).2 = .ok (getRaw s.spc) ∧ s.obsId = "" ∧ s.phot = none ∧
      (getCont med s.spc).2 = .throw .INTERNAL_ERROR ∧ (getNoCont med s.spc).2 = .throw .INTERNAL_ERROR := by
  intro s hs
  obtain ⟨h1, h2, h3, h4, h5⟩ := log_facts ss new t o ho r h s hs
  have hl : (lazy med s.spc).2 = .throw .INTERNAL_ERROR := by
    unfold lazy
    rw [if_neg (by rw [h5]; decide)]
    unfold estimate
    rw [h4]
    rfl
  refine ⟨h1, ?_, h2, h3, ?_, ?_⟩
  · unfold getFlux; rw [h1]
  · unfold getCont; simp only [hl, Res.bind_throw]
  · unfold getNoCont; simp only [hl, Res.bind_throw]

/-- C179 (the component is ignored): the spectra of the operator on log grids are the same for every selected component. -/
theorem C179_log_same (c : Context K L P) (o : Operator K) (ho : o = .log ∨ ∃ ms, o = .logSub ms) (t u : FluxType) :
    fitted o (select c t) = fitted o (select c u) := by
  rcases ho with rfl | ⟨ms, rfl⟩ <;> rfl

/-- C179 (one model for all the observations): the models saved by the operator on log grids are all under the empty
identifier, and only the last is kept. -/
theorem C179_log_models {M : Type} (ss : List (Full K L P)) (new : List (List K × List K × K × Bool)) (t : FluxType)
    (o : Operator K) (ho : o = .log ∨ ∃ ms, o = .logSub ms) (r : List (Full K L P))
    (h : fitted o (select (resample ss new) t) = .ok r) (ms : List M) (hm : ms.length = r.length) :
    (∀ k, k ≠ "" → saveModels (r.zip ms) (fun _ => none) k = none) ∧
    saveModels (r.zip ms) (fun _ => none) "" = ms.getLast? := by
  have facts := log_facts ss new t o ho r h
  constructor
  · intro k hk
    rw [saveModels_not_mem]
    rintro ⟨s, x⟩ hx
    rw [(facts s (List.of_mem_zip hx).1).2.1]
    exact hk.symm
  · have gen : ∀ (r : List (Full K L P)) (ms : List M) (m : String → Option M), ms.length = r.length →
        (∀ s ∈ r, s.obsId = "") → saveModels (r.zip ms) m "" = (ms.getLast?).or (m "") := by
      intro r
      induction r with
      | nil =>
        intro ms m hl _
        cases ms with
        | nil => rfl
        | cons _ _ => cases hl
      | cons s r ih =>
        intro ms m hl hs
        cases ms with
        | nil => cases hl
        | cons x ms =>
          have e : saveModels ((s :: r).zip (x :: ms)) m = saveModels (r.zip ms) (addModel m s.obsId x) := rfl
          rw [e, ih ms _ (by simpa using hl) fun y hy => hs y (List.mem_cons_of_mem _ hy)]
          have : addModel m s.obsId x "" = some x := by
            unfold addModel; rw [if_pos (hs s (List.mem_cons_self ..)).symm]
          rw [this]
          cases hg : ms.getLast? with
          | none =>
            rw [List.getLast?_eq_none_iff] at hg
            subst hg; rfl
          | some y => rw [List.getLast?_cons, hg]; rfl
    rw [gen r ms _ hm fun s hs => (facts s hs).2.1]
    cases ms.getLast? <;> rfl

end

/-- C179 (counterexample): two observations, the continuum-subtracted component selected; the operator on log grids reads the
raw flux, and the second model replaces the first. -/
theorem C179_log_counterexample : ∃ (ss : List (Full ℚ Nat Nat)) (r : List (Full ℚ Nat Nat)),
    ss.map (·.obsId) = ["o1", "o2"] ∧
    fitted Operator.log (select (resample ss [([1, 2], [3, 4], 0, false), ([1, 2], [5, 6], 0, false)]) .noContinuum) = .ok r ∧
    r.map (fun s => s.spc.type) = [.raw, .raw] ∧
    saveModels (r.zip ["model 1", "model 2"]) (fun _ => none) "o1" = none ∧
    saveModels (r.zip ["model 1", "model 2"]) (fun _ => none) "" = some "model 2" :=
  ⟨[demo, { other with obsId := "o2" }], _, rfl, rfl, rfl, by decide +kernel, by decide +kernel⟩

example : ∃ ss, fitted Operator.plain (select (⟨[demo, other], []⟩ : Context ℚ Nat Nat) .continuumOnly) = .ok ss ∧
    ss.map (fun s => (s.obsId, s.spc.type)) = [("o1", .continuumOnly), ("o2", .continuumOnly)] :=
  ⟨_, rfl, by decide +kernel⟩

end SpcCopy
end Amazed
