import Verif.Model.RebinCache
import Verif.Props.ContinuumProps

set_option linter.unusedVariables false
set_option linter.unusedSectionVars false
set_option linter.unusedSimpArgs false

/-! # C197: a resampled spectrum is made from the present flux -/

namespace Amazed
namespace RebinCache
open Continuum

variable {K Q O : Type} [Field K] [LinearOrder K] [IsStrictOrderedRing K]

/-! ## Specification -/

/-- The resampling of a spectrum given by its axis and its flux only: with the fine grid, the table of that flux. -/
def resample (I : Interp K Q O) (k : Kind) (axis flux : List K) (q : Q) : Res O :=
  if decide (axis.length = flux.length) && decide (axis ≠ []) && (SAxis.ofList axis).isSorted.1 then
    I.pre axis q >>= fun _ => if k = .fine then I.tab axis flux >>= fun t => useTable I axis t q else I.run k axis flux q
  else .throw .INVALID_SPECTRUM

/-- The spectrum resamples its present selected flux on its present axis. -/
def Current (I : Interp K Q O) (med : List K → List K → K → Bool → Res (List K)) (s : R K) : Prop :=
  ∀ q, (rebin I med s q).2 = ((getFlux med s.spc).2 >>= fun f => resample I s.kind s.spc.axis f q)

/-- Is the call harmless for the fine grid when one was already computed? The calls that change the flux must be made while the interpolation is the fine grid (they reset it); the parameters of the continuum can be set when the raw flux
is selected; the others (new spectral axis, inversion, correction of samples, initialisation of the continuum) are not allowed. -/
def Harmless (k : Kind) (t : FluxType) : Op K Q → Prop
  | .flux (.setFlux ..) => k = .fine
  | .flux (.setAxes ..) => k = .fine
  | .flux (.amplitude _) => k = .fine
  | .flux (.setType t') => k = .fine ∨ t' = t
  | .flux (.setWin _) => t = .raw
  | .flux (.setEven _) => t = .raw
  | .flux (.setMethod _) => t = .raw
  | .flux (.setManual _) => t = .raw
  | .flux (.setAxis _) => False
  | .flux .invert => False
  | .flux (.correct _) => False
  | .flux (.initContinuum ..) => False
  | .flux (.maskCopy _) => True
  | .flux .getFlux => True
  | .flux .getCont => True
  | .flux .getNoCont => True
  | .interp _ => True
  | .rebin _ => True
  | .copy => True

/-- Does the call resample with the fine grid? -/
def usesGrid (k : Kind) : Op K Q → Bool
  | .rebin _ => decide (k = .fine)
  | _ => false

/-- A history whose calls are harmless after the first resampling with the fine grid; `used`: there was one before. -/
def Careful (I : Interp K Q O) (med : List K → List K → K → Bool → Res (List K)) : Bool → R K → List (Op K Q) → Prop
  | _, _, [] => True
  | used, s, o :: os => (used = true → Harmless s.kind s.spc.type o) ∧ Careful I med (used || usesGrid s.kind o) (step I med s o).1 os

/-! ## Proofs -/

variable {med : List K → List K → K → Bool → Res (List K)}

theorem lazy_idem (s : Spc K) (h : (lazy med s).2 = .ok ()) : lazy med (lazy med s).1 = ((lazy med s).1, .ok ()) := by
  have := lazy_ok med h
  generalize (lazy med s).1 = c at *
  unfold lazy
  rw [if_pos this]

theorem lazy_same (s c : Spc K) (hr : s.removed = true) (h : lazy med s = (c, .ok ())) : c = s := by
  unfold lazy at h
  rw [if_pos hr] at h
  exact (congrArg Prod.fst h).symm

/-- The selected flux, when it can be read, is the one read before. -/
theorem getFlux_again (s : Spc K) (f : List K) (h : (getFlux med s).2 = .ok f) : getFlux med (getFlux med s).1 = ((getFlux med s).1, .ok f) := by
  unfold getFlux at *
  cases ht : s.type with
  | raw =>
    simp only [ht] at h ⊢
    rw [h]
  | continuumOnly =>
    simp only [ht] at h ⊢
    unfold getCont at h
    obtain ⟨_, h1, h2⟩ := Res.bind_eq_ok.1 h
    have h3 := lazy_keeps med s
    have e1 : (getCont med s).1 = (lazy med s).1 := rfl
    have e2 : (getCont med s).1.type = .continuumOnly := by rw [e1, h3.2.2.1, ht]
    simp only [e2]
    rw [e1]
    unfold getCont
    rw [lazy_idem s h1]
    simp only [Res.bind_ok]
    rw [Res.ok.inj h2]
  | noContinuum =>
    simp only [ht] at h ⊢
    unfold getNoCont at h
    obtain ⟨_, h1, h2⟩ := Res.bind_eq_ok.1 h
    have h3 := lazy_keeps med s
    have e1 : (getNoCont med s).1 = (lazy med s).1 := rfl
    have e2 : (getNoCont med s).1.type = .noContinuum := by rw [e1, h3.2.2.1, ht]
    simp only [e2]
    rw [e1]
    unfold getNoCont
    rw [lazy_idem s h1]
    simp only [Res.bind_ok]
    rw [Res.ok.inj h2]

/-- Computing the continuum does not change the selected flux. -/
theorem getFlux_lazy (s : Spc K) (f : List K) (h : (getFlux med s).2 = .ok f) : (getFlux med (lazy med s).1).2 = .ok f := by
  have h3 := lazy_keeps med s
  cases ht : s.type with
  | raw =>
    unfold getFlux at *
    simp only [ht] at h
    have e2 : (lazy med s).1.type = .raw := by rw [h3.2.2.1, ht]
    simp only [e2]
    unfold getRaw at *
    rw [h3.1]; exact h
  | continuumOnly =>
    have := getFlux_again s f h
    have e1 : (getFlux med s).1 = (lazy med s).1 := by unfold getFlux; simp only [ht]; rfl
    rw [e1] at this
    rw [this]
  | noContinuum =>
    have := getFlux_again s f h
    have e1 : (getFlux med s).1 = (lazy med s).1 := by unfold getFlux; simp only [ht]; rfl
    rw [e1] at this
    rw [this]

/-- The table, if there is one, is the one of the present flux. -/
def Fresh (I : Interp K Q O) (med : List K → List K → K → Bool → Res (List K)) (s : R K) : Prop :=
  ∀ t, s.table = some t → ∃ f, (getFlux med s.spc).2 = .ok f ∧ I.tab s.spc.axis f = .ok t

theorem fresh_none (I : Interp K Q O) (s : R K) (h : s.table = none) : Fresh I med s := by
  intro t ht; rw [h] at ht; cases ht

theorem getFlux_type (s : Spc K) : (getFlux med s).1.type = s.type := (getFlux_keeps med s).2.2.1

theorem fresh_getFlux (I : Interp K Q O) (s : R K) (h : Fresh I med s) : Fresh I med { s with spc := (getFlux med s.spc).1 } := by
  intro t ht
  obtain ⟨f, h1, h2⟩ := h t ht
  refine ⟨f, ?_, ?_⟩
  · show (getFlux med (getFlux med s.spc).1).2 = _
    rw [getFlux_again s.spc f h1]
  · show I.tab (getFlux med s.spc).1.axis f = _
    rw [(getFlux_keeps med s.spc).2.1]; exact h2

theorem fresh_lazy (I : Interp K Q O) (s : R K) (h : Fresh I med s) : Fresh I med { s with spc := (lazy med s.spc).1 } := by
  intro t ht
  obtain ⟨f, h1, h2⟩ := h t ht
  refine ⟨f, getFlux_lazy s.spc f h1, ?_⟩
  show I.tab (lazy med s.spc).1.axis f = _
  rw [(lazy_keeps med s.spc).2.1]; exact h2

/-- A call that keeps the axis and the raw flux of a spectrum whose raw flux is selected. -/
theorem fresh_raw (I : Interp K Q O) (s : R K) (h : Fresh I med s) (c : Spc K) (ht : s.spc.type = .raw) (h1 : c.type = .raw) (h2 : c.axis = s.spc.axis) (h3 : c.raw = s.spc.raw) : Fresh I med { s with spc := c } := by
  intro t hx
  obtain ⟨f, g1, g2⟩ := h t hx
  refine ⟨f, ?_, by show I.tab c.axis f = _; rw [h2]; exact g2⟩
  show (getFlux med c).2 = _
  unfold getFlux at g1 ⊢
  simp only [ht] at g1
  simp only [h1]
  unfold getRaw at *
  rw [h3]; exact g1

theorem rebin_state (I : Interp K Q O) (s : R K) (q : Q) :
    (rebin I med s q).1 = { s with spc := (getFlux med s.spc).1 } ∨
    ∃ f t, s.kind = .fine ∧ s.table = none ∧ (getFlux med s.spc).2 = .ok f ∧ I.tab s.spc.axis f = .ok t ∧ (rebin I med s q).1 = { s with spc := (getFlux med s.spc).1, table := some t } := by
  have hk := getFlux_keeps med s.spc
  unfold rebin
  rcases hg : getFlux med s.spc with ⟨c, f | e | _⟩
  · rw [hg] at hk
    simp only at hk
    simp only
    by_cases hv : validWith c f = false
    · rw [if_pos hv]; exact Or.inl rfl
    · rw [if_neg hv]
      cases I.pre c.axis q with
      | throw e => exact Or.inl rfl
      | ub => exact Or.inl rfl
      | ok _ =>
        simp only
        by_cases hf : s.kind = .fine
        · rw [if_pos hf]
          unfold rebinFine
          cases ht : s.table with
          | some t => exact Or.inl (by simp only [ht])
          | none =>
            simp only [ht]
            cases htab : I.tab c.axis f with
            | ok t => exact Or.inr ⟨f, t, hf, trivial, rfl, by rw [← hk.2.1]; exact htab, rfl⟩
            | throw e => exact Or.inl (by simp only [ht])
            | ub => exact Or.inl (by simp only [ht])
        · rw [if_neg hf]; exact Or.inl rfl
  · exact Or.inl rfl
  · exact Or.inl rfl

theorem fresh_rebin (I : Interp K Q O) (s : R K) (q : Q) (h : Fresh I med s) : Fresh I med (rebin I med s q).1 := by
  rcases rebin_state (med := med) I s q with e | ⟨f, t, hk, ht, h1, h2, e⟩
  · rw [e]; exact fresh_getFlux I s h
  · rw [e]
    intro t' ht'
    cases ht'
    refine ⟨f, ?_, ?_⟩
    · show (getFlux med (getFlux med s.spc).1).2 = _
      rw [getFlux_again s.spc f h1]
    · show I.tab (getFlux med s.spc).1.axis f = _
      rw [(getFlux_keeps med s.spc).2.1]; exact h2

/-- Without a resampling with the fine grid no table appears. -/
theorem step_none (I : Interp K Q O) (s : R K) (o : Op K Q) (h : s.table = none) (hu : usesGrid s.kind o = false) : (step I med s o).1.table = none := by
  have hreset : ∀ r : Spc K × Res Unit, (resetting s r).1.table = none := by
    intro r
    unfold resetting
    rcases r with ⟨c, _ | _ | _⟩
    · show (resetGrid _).table = none
      unfold resetGrid
      split
      · rfl
      · exact h
    · exact h
    · exact h
  have htype : ∀ t, (setType s t).table = none := by
    intro t
    unfold setType resetGrid
    split
    · split
      · rfl
      · exact h
    · exact h
  cases o with
  | interp n =>
    show (setInterp s n).1.table = none
    unfold setInterp
    split <;> exact h
  | rebin q =>
    show (rebin I med s q).1.table = none
    rcases rebin_state (med := med) I s q with e | ⟨f, t, hk, _⟩
    · rw [e]; exact h
    · have : decide (s.kind = .fine) = false := hu
      rw [hk] at this; exact nomatch this
  | copy =>
    show (copy med s).1.table = none
    unfold copy
    split
    · split
      · exact h
      · rfl
    · exact h
    · exact h
  | flux o =>
    cases o with
    | setFlux l b => exact hreset _
    | setAxes a l => exact hreset _
    | amplitude c => exact hreset _
    | setType t => exact htype t
    | initContinuum w m win e =>
      show (initCont med s w m win e).1.table = none
      unfold initCont
      split
      · split
        · exact h
        · exact htype _
      · exact h
      · exact h
    | maskCopy m =>
      show (masked s m).1.table = none
      unfold masked
      split
      · rfl
      · exact h
      · exact h
    | _ => exact h

theorem fresh_step (I : Interp K Q O) (s : R K) (o : Op K Q) (h : Fresh I med s) (hh : s.table = none ∨ Harmless s.kind s.spc.type o) : Fresh I med (step I med s o).1 := by
  by_cases hn : s.table = none ∧ usesGrid s.kind o = false
  · exact fresh_none I _ (step_none I s o hn.1 hn.2)
  · -- a table, or a resampling
    have hreset : ∀ r : Spc K × Res Unit, s.kind = .fine → (∀ e, r.2 = e → e ≠ .ok () → r.1 = s.spc) → Fresh I med (resetting s r).1 := by
      intro r hk hr
      unfold resetting
      rcases r with ⟨c, _ | e | _⟩
      · show Fresh I med (resetGrid _)
        unfold resetGrid
        rw [if_pos hk]
        exact fresh_none I _ rfl
      · have := hr _ rfl (by simp)
        simp only at this
        subst this
        exact h
      · have := hr _ rfl (by simp)
        simp only at this
        subst this
        exact h
    cases o with
    | rebin q => exact fresh_rebin I s q h
    | interp n =>
      show Fresh I med (setInterp s n).1
      unfold setInterp
      split
      · exact h
      · exact h
    | copy =>
      show Fresh I med (copy med s).1
      unfold copy
      split
      · split
        · exact h
        · exact fresh_none I _ rfl
      · exact h
      · exact h
    | flux o =>
      have hh : Harmless s.kind s.spc.type (.flux o : Op K Q) := by
        rcases hh with h1 | h1
        · exact absurd ⟨h1, rfl⟩ hn
        · exact h1
      cases o with
      | setFlux l b =>
        refine hreset _ hh ?_
        intro e he hne
        unfold Continuum.setFlux at he ⊢
        split
        · rfl
        · rename_i hc
          rw [if_neg hc] at he
          exact absurd he.symm hne
      | setAxes a l =>
        refine hreset _ hh ?_
        intro e he hne
        unfold Continuum.setAxes at he ⊢
        split
        · rfl
        · rename_i hc
          rw [if_neg hc] at he
          unfold Continuum.setFlux at he
          rw [if_neg (by
            intro h
            rcases h with h | h
            · exact hc (Or.inl h)
            · exact hc (Or.inr h.2))] at he
          exact absurd he.symm hne
      | amplitude c => exact hreset _ hh (fun e he hne => absurd he.symm hne)
      | setType t =>
        show Fresh I med (setType s t)
        unfold setType
        split
        · rename_i hne
          rcases hh with hk | hk
          · unfold resetGrid
            rw [if_pos hk]
            exact fresh_none I _ rfl
          · exact absurd hk.symm hne
        · exact h
      | maskCopy m =>
        show Fresh I med (masked s m).1
        unfold masked
        split
        · exact fresh_none I _ rfl
        · exact h
        · exact h
      | setWin w =>
        have ht : s.spc.type = .raw := hh
        refine fresh_raw I s h (Continuum.setWin s.spc w) ht ?_ ?_ ?_ <;> (unfold Continuum.setWin; split <;> first | exact ht | rfl)
      | setEven b =>
        have ht : s.spc.type = .raw := hh
        refine fresh_raw I s h (Continuum.setEven s.spc b) ht ?_ ?_ ?_ <;> (unfold Continuum.setEven; split <;> first | exact ht | rfl)
      | setMethod m =>
        have ht : s.spc.type = .raw := hh
        refine fresh_raw I s h (Continuum.setMethod s.spc m) ht ?_ ?_ ?_ <;> (unfold Continuum.setMethod; split <;> first | exact ht | rfl)
      | setManual c =>
        have ht : s.spc.type = .raw := hh
        refine fresh_raw I s h (Continuum.setManual s.spc c).1 ht ?_ ?_ ?_ <;> (unfold Continuum.setManual; dsimp only; split <;> first | exact ht | rfl)
      | getFlux => exact fresh_getFlux I s h
      | getCont => exact fresh_lazy I s h
      | getNoCont => exact fresh_lazy I s h
      | setAxis a => exact hh.elim
      | invert => exact hh.elim
      | correct ws => exact hh.elim
      | initContinuum w m win e => exact hh.elim

theorem fresh_run (I : Interp K Q O) : ∀ (ops : List (Op K Q)) (used : Bool) (s : R K), Fresh I med s → (used = false → s.table = none) → Careful I med used s ops → Fresh I med (run I med s ops)
  | [], _, s, h, _, _ => h
  | o :: os, used, s, h, hu, hc => by
    obtain ⟨h1, h2⟩ := hc
    refine fresh_run I os (used || usesGrid s.kind o) _ (fresh_step I s o h ?_) ?_ h2
    · cases used with
      | true => exact Or.inr (h1 rfl)
      | false => exact Or.inl (hu rfl)
    · intro hf
      rw [Bool.or_eq_false_iff] at hf
      exact step_none I s o (hu hf.1) hf.2

/-- A fresh table gives the present flux. -/
theorem current_of_fresh (I : Interp K Q O) (s : R K) (h : Fresh I med s) : Current I med s := by
  intro q
  have hk := getFlux_keeps med s.spc
  unfold rebin
  rcases hg : getFlux med s.spc with ⟨c, f | e | _⟩
  · rw [hg] at hk
    simp only at hk
    simp only [Res.bind_ok]
    unfold resample
    have hv : validWith c f = (decide (s.spc.axis.length = f.length) && decide (s.spc.axis ≠ []) && (SAxis.ofList s.spc.axis).isSorted.1) := by
      unfold validWith; rw [hk.2.1]
    rw [← hv]
    by_cases hc : validWith c f = false
    · rw [if_pos hc, if_neg (by rw [hc]; decide)]
    · have hc' : validWith c f = true := by simpa using hc
      rw [if_neg hc, if_pos hc', hk.2.1]
      cases I.pre s.spc.axis q with
      | throw e => rfl
      | ub => rfl
      | ok _ =>
        simp only [Res.bind_ok]
        by_cases hf : s.kind = .fine
        · rw [if_pos hf, if_pos hf]
          unfold rebinFine
          cases ht : s.table with
          | some t =>
            obtain ⟨f', g1, g2⟩ := h t ht
            rw [hg] at g1
            cases g1
            rw [g2, Res.bind_ok]
            simp only [hk.2.1]
          | none =>
            simp only [hk.2.1]
            cases htab : I.tab s.spc.axis f <;> rfl
        · rw [if_neg hf, if_neg hf]
  · rfl
  · rfl

/-- **C197.** After every careful history of calls on a spectrum, a resampling gives what the present flux and axis give. -/
theorem C197_current_partial (I : Interp K Q O) (axis flux : List K) (s0 : R K) (h0 : make axis flux = .ok s0) (ops : List (Op K Q)) (hc : Careful I med false s0 ops) :
    Current I med (run I med s0 ops) := by
  have hn : s0.table = none := by
    unfold make at h0
    obtain ⟨c, _, h⟩ := Res.bind_eq_ok.1 h0
    rw [← Res.ok.inj h]
  exact current_of_fresh I _ (fresh_run I ops false s0 (fresh_none I s0 hn) (fun _ => hn) hc)

/-- Without the fine grid every history gives the present flux. -/
theorem C197_other (I : Interp K Q O) (s : R K) (h : s.kind ≠ .fine) : Current I med s := by
  intro q
  have e1 : (rebin I med s q).2 = (rebin I med { s with table := none } q).2 := by
    unfold rebin
    rcases getFlux med s.spc with ⟨c, f | e | _⟩
    · simp only
      split
      · rfl
      · cases I.pre c.axis q with
        | ok _ => simp only [if_neg h]
        | throw e => rfl
        | ub => rfl
    · rfl
    · rfl
  rw [e1]
  exact current_of_fresh I { s with table := none } (fresh_none I _ rfl) q

/-- An unknown name is refused and changes nothing. -/
theorem C197_unknown (s : R K) (n : String) (h : n ≠ "lin" ∧ n ≠ "preComputedFineGrid" ∧ n ≠ "spline" ∧ n ≠ "ngp") : setInterp s n = (s, .throw .INVALID_PARAMETER) := by
  unfold setInterp ofName
  rw [if_neg h.1, if_neg h.2.1, if_neg h.2.2.1, if_neg h.2.2.2]

/-- The names of the interpolations. -/
theorem C197_names (s : R K) :
    setInterp s "lin" = ({ s with kind := .lin }, .ok ()) ∧ setInterp s "preComputedFineGrid" = ({ s with kind := .fine }, .ok ()) ∧
    setInterp s "spline" = ({ s with kind := .spline }, .ok ()) ∧ setInterp s "ngp" = ({ s with kind := .ngp }, .ok ()) := by
  refine ⟨?_, ?_, ?_, ?_⟩ <;> unfold setInterp
  · rw [show ofName "lin" = some Kind.lin by decide +kernel]
  · rw [show ofName "preComputedFineGrid" = some Kind.fine by decide +kernel]
  · rw [show ofName "spline" = some Kind.spline by decide +kernel]
  · rw [show ofName "ngp" = some Kind.ngp by decide +kernel]

/-- The interpolations of the library: with the linear, spline and nearest interpolations, and with the fine grid, the specification is the resampling of `Rebin` (C37). -/
theorem C197_library (spl : List ℝ → List ℝ → ℝ → ℝ) (axis flux : List ℝ) (h : axis.length = flux.length) (hne : axis ≠ []) (hs : (SAxis.ofList axis).isSorted.1 = true) (q : Query) :
    resample (library spl) .lin axis flux q = Rebin.linear q.mode axis flux q.err q.range q.target ∧
    resample (library spl) .ngp axis flux q = Rebin.ngp q.mode axis flux q.err q.range q.target ∧
    resample (library spl) .spline axis flux q = Rebin.spline q.mode (spl axis flux) axis q.range q.target ∧
    resample (library spl) .fine axis flux q = Rebin.fine q.mode (spl axis flux) axis q.range q.target := by
  have hv : (decide (axis.length = flux.length) && decide (axis ≠ []) && (SAxis.ofList axis).isSorted.1) = true := by
    rw [hs]; simp [h, hne]
  have hpos : 0 < axis.length := List.length_pos_iff.2 hne
  have e0 : Res.at_ axis 0 = .ok axis[0] := Res.at_of_lt hpos
  have e1 : ∃ x, Res.atZ axis ((axis.length : Int) - 1) = .ok x := by
    have h1 : ((axis.length : Int) - 1) = ((axis.length - 1 : Nat) : Int) := by omega
    refine ⟨axis[axis.length - 1], ?_⟩
    rw [h1]
    unfold Res.atZ
    rw [if_neg (by omega)]
    exact Res.at_of_lt (by omega)
  obtain ⟨xl, e1⟩ := e1
  have hc : ∀ (body : Nat → List ℝ → Res (List (Rebin.Cell ℝ) × List ℝ)) (xt : List ℝ), Rebin.compute body q.mode axis q.range xt =
      if q.range.b < axis[0] ∨ xl < q.range.e then .throw .INTERNAL_ERROR
      else body (Rebin.prefixLoop q.mode q.range.b xt).1.length (Rebin.prefixLoop q.mode q.range.b xt).2 >>= fun p =>
        .ok ((Rebin.prefixLoop q.mode q.range.b xt).1 ++ p.1 ++ p.2.map (fun _ => Rebin.outside q.mode)) := by
    intro body xt
    unfold Rebin.compute
    rw [e0, Res.bind_ok, e1, Res.bind_ok]
  have hpre : (library spl).pre axis q = if q.range.b < axis[0] ∨ xl < q.range.e then .throw .INTERNAL_ERROR else .ok () := by
    show (Rebin.compute _ _ _ _ _ >>= _) = _
    rw [hc]
    split <;> rfl
  have key : ∀ body : Nat → List ℝ → Res (List (Rebin.Cell ℝ) × List ℝ), ((library spl).pre axis q >>= fun _ => Rebin.compute body q.mode axis q.range q.target) = Rebin.compute body q.mode axis q.range q.target := by
    intro body
    rw [hpre, hc]
    split <;> rfl
  unfold resample
  simp only [hv, if_true]
  refine ⟨?_, ?_, ?_, ?_⟩
  · rw [if_neg (by decide)]; exact key _
  · rw [if_neg (by decide)]; exact key _
  · rw [if_neg (by decide)]
    show (library spl).pre axis q >>= (fun _ => Rebin.spline q.mode (spl axis flux) axis q.range q.target) = _
    unfold Rebin.spline
    exact key _
  · unfold Rebin.fine
    rw [hpre, hc]
    by_cases hr : q.range.b < axis[0] ∨ xl < q.range.e
    · rw [if_pos hr, if_pos hr]; rfl
    · rw [if_neg hr, if_neg hr, Res.bind_ok]
      show (Rebin.fineTable (spl axis flux) axis >>= _) = _
      cases Rebin.fineTable (spl axis flux) axis with
      | throw e => rfl
      | ub => rfl
      | ok t =>
        rw [Res.bind_ok, Res.bind_ok]
        unfold useTable
        by_cases ht : t = []
        · rw [if_pos ht, if_pos (by rw [ht]; rfl)]; rfl
        · rw [if_neg ht, if_neg (by rw [List.length_eq_zero_iff]; exact ht)]
          show Rebin.compute _ q.mode axis q.range q.target = _
          rw [hc, if_neg hr]

/-! ## Examples and counterexamples -/

/-- Rational interpolations: the table of the fine grid is the flux, and a resampling reads one sample. -/
def toy : Interp ℚ Nat ℚ := ⟨fun _ f => .ok f, fun _ _ => .ok (), fun _ t q => Res.at_ t q, fun _ _ f q => Res.at_ f q⟩

/-- The median removes everything. -/
def toyMed : List ℚ → List ℚ → ℚ → Bool → Res (List ℚ) := fun _ f _ _ => .ok (f.map fun _ => 0)

def toy0 : R ℚ := ⟨⟨[1, 2, 3], [4, 5, 6], [], [], false, "", -1, true, .raw⟩, .lin, none⟩

example : make [1, 2, 3] [4, 5, 6] = .ok toy0 := by decide +kernel

/-- Example for C197: the fine grid is used, then the spline, then the fine grid again; a new flux is given while the fine grid is in force. -/
example : Careful toy toyMed false toy0 [.interp "preComputedFineGrid", .rebin 1, .interp "spline", .rebin 1, .interp "preComputedFineGrid", .flux (.setFlux [7, 8, 9] false)] ∧
    (rebin toy toyMed (run toy toyMed toy0 [.interp "preComputedFineGrid", .rebin 1, .interp "spline", .rebin 1, .interp "preComputedFineGrid", .flux (.setFlux [7, 8, 9] false)]) 1).2 = .ok 8 := by
  refine ⟨⟨nofun, nofun, fun _ => trivial, fun _ => trivial, fun _ => trivial, fun _ => ?_, trivial⟩, by decide +kernel⟩
  show (run toy toyMed toy0 [.interp "preComputedFineGrid", .rebin 1, .interp "spline", .rebin 1, .interp "preComputedFineGrid"]).kind = .fine
  decide +kernel

/-- **C197 fails** for the other histories; in each one the sample resampled at the end is the old one (5 or the like), while the present flux has another.
1. The flux is replaced while another interpolation is in force. 2. The component is changed while another interpolation is in force. 3. The flux is inverted. 4. A sample is corrected. 5. The spectrum is smoothed. 6. The continuum method is changed while the
continuum is selected. -/
theorem C197_stale_counterexamples :
    (rebin toy toyMed (run toy toyMed toy0 [.interp "preComputedFineGrid", .rebin 1, .interp "spline", .flux (.setFlux [7, 8, 9] false), .interp "preComputedFineGrid"]) 1).2 = .ok 5 ∧
    (rebin toy toyMed (run toy toyMed toy0 [.flux (.setMethod "zero"), .interp "preComputedFineGrid", .rebin 1, .interp "lin", .flux (.setType .continuumOnly), .interp "preComputedFineGrid"]) 1).2 = .ok 5 ∧
    (getFlux toyMed (run toy toyMed toy0 [.flux (.setMethod "zero"), .interp "preComputedFineGrid", .rebin 1, .interp "lin", .flux (.setType .continuumOnly), .interp "preComputedFineGrid"]).spc).2 = .ok [0, 0, 0] ∧
    (rebin toy toyMed (run toy toyMed toy0 [.interp "preComputedFineGrid", .rebin 1, .flux .invert]) 1).2 = .ok 5 ∧
    (rebin toy toyMed (run toy toyMed toy0 [.interp "preComputedFineGrid", .rebin 1, .flux (.correct [(1, 0)])]) 1).2 = .ok 5 ∧
    (run toy toyMed toy0 [.interp "preComputedFineGrid", .rebin 1, .flux (.correct [(1, 0)])]).spc.raw = [4, 0, 6] ∧
    (rebin toy toyMed (run toy toyMed toy0 [.interp "preComputedFineGrid", .rebin 0, .flux (.initContinuum 2 "zero" 1 true)]) 0).2 = .ok 4 ∧
    (run toy toyMed toy0 [.interp "preComputedFineGrid", .rebin 0, .flux (.initContinuum 2 "zero" 1 true)]).spc.raw ≠ [4, 5, 6] ∧
    (rebin toy toyMed (run toy toyMed toy0 [.flux (.setMethod "zero"), .flux (.setType .continuumOnly), .interp "preComputedFineGrid", .rebin 1, .flux (.setMethod "raw")]) 1).2 = .ok 0 ∧
    (getFlux toyMed (run toy toyMed toy0 [.flux (.setMethod "zero"), .flux (.setType .continuumOnly), .interp "preComputedFineGrid", .rebin 1, .flux (.setMethod "raw")]).spc).2 = .ok [4, 5, 6] := by
  decide +kernel

end RebinCache
end Amazed
