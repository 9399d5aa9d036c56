import Verif.Model.SolveRun
import Verif.Props.ScopeProps
import Verif.Props.ResultStoreProps
import Verif.Props.FlagProps
import Mathlib.Tactic.Set

/-! # C176, C177: running solvers -/

set_option linter.unusedSectionVars false
set_option linter.unusedVariables false

namespace Amazed
namespace SolveRun
variable {R : Type}

/-! ## Specification -/

/-- A solver that keeps to its scope: it puts the scope back, its initialisation stores nothing, and its computation only adds
results, named in the current scope, and not with the two names of the runner. -/
structure Polite (s : Solver R) : Prop where
  initScope : ∀ w, (s.init w).1.scope = w.scope
  initStore : ∀ w, (s.init w).1.store = w.store
  initDefined : ∀ w, (s.init w).2 ≠ .ub
  scope : ∀ w, (s.compute w).1.scope = w.scope
  defined : ∀ w, (s.compute w).2 ≠ .ub
  keeps : ∀ w k r, w.store.global k = some r → (s.compute w).1.store.global k = some r
  adds : ∀ w k, w.store.global k = none → (s.compute w).1.store.global k ≠ none →
    ∃ n, k = scopedName w.scope n ∧ n ≠ "warningFlag" ∧ n ≠ "solveResult"

/-! ## One store -/

theorem storeKey_scoped (sc : ScopeStack) (n : String) :
    ResultStore.storeKey (currentScopeName sc.names) n = scopedName sc n := by
  rw [ResultStore.storeKey_eq]
  unfold scopedName ResultStore.joinPath
  by_cases he : currentScopeName sc.names = ""
  · rw [he, appendName_empty, if_pos rfl]
  · rw [appendName_of_ne he, if_neg he]

theorem store_some {st : ResultStore R} {sc : ScopeStack} {n : String} {r x : R}
    (h : st.global (scopedName sc n) = some x) : st.storeScopedGlobal sc n r = (st, .throw .INTERNAL_ERROR) := by
  unfold ResultStore.storeScopedGlobal ResultStore.storeGlobal ResultStore.storeResult
  rw [storeKey_scoped, h]

theorem store_none {st : ResultStore R} {sc : ScopeStack} {n : String} {r : R}
    (h : st.global (scopedName sc n) = none) :
    st.storeScopedGlobal sc n r =
      ({ st with global := fun k => if k = scopedName sc n then some r else st.global k }, .ok ()) := by
  unfold ResultStore.storeScopedGlobal ResultStore.storeGlobal ResultStore.storeResult
  rw [storeKey_scoped, h]

theorem names_ne (sc : ScopeStack) {a b : String} (h : a ≠ b) : scopedName sc a ≠ scopedName sc b :=
  fun e => h (C16_scopedName_injective_name sc a b e)

theorem compute_none {s : Solver R} (hp : Polite s) {w : World R} {n : String} (hn : n = "warningFlag" ∨ n = "solveResult")
    (h : w.store.global (scopedName w.scope n) = none) :
    (s.compute w).1.store.global (scopedName w.scope n) = none := by
  apply Classical.byContradiction
  intro hc
  obtain ⟨m, e, h1, h2⟩ := hp.adds w _ h hc
  have := C16_scopedName_injective_name w.scope _ _ e
  rcases hn with rfl | rfl
  · exact h1 this.symm
  · exact h2 this.symm

/-! ## One run -/

/-- The result of the computation `c`, made in the scope `sc`, as it is in the store at the end: with the warnings of the
computation, and with its result if it has one. -/
def Saved (fr : FlagState → R) (sc : ScopeStack) (c : World R × Res R) (st : ResultStore R) : Prop :=
  st.global (scopedName sc "warningFlag") = some (fr c.1.flag) ∧
  st.global (scopedName sc "solveResult") = (match c.2 with | .ok r => some r | _ => none) ∧
  ∀ k, k ≠ scopedName sc "warningFlag" → k ≠ scopedName sc "solveResult" → st.global k = c.1.store.global k

/-- The end of a run whose computation is `c`. -/
def endOf : Res R → End
  | .ok _ => .returns
  | .throw e => .throws e
  | .ub => .undefined

theorem leave_ok (fr : FlagState → R) (w : World R) (r : Res Unit) {sc : ScopeStack}
    (hpop : w.scope.pop = (sc, .ok ())) (hk : w.store.global (scopedName w.scope "warningFlag") = none) :
    leave fr w r = (⟨sc, ⟨fun k => if k = scopedName w.scope "warningFlag" then some (fr w.flag)
        else w.store.global k, w.store.perTemplate⟩, {}⟩, End.ofRes r) := by
  unfold leave autoSave storeFlag
  rw [store_none hk]
  simp only
  rw [hpop]
  rfl

theorem leave_taken (fr : FlagState → R) (w : World R) (r : Res Unit) {x : R}
    (hk : w.store.global (scopedName w.scope "warningFlag") = some x) : leave fr w r = (w, .terminates) := by
  unfold leave autoSave storeFlag
  rw [store_some hk]

/-- **C176** A run with free names: it ends as its computation does, the scope is put back, the warnings of the run are saved
in the scope of the method even when the computation throws, the warnings are reset, and the result is stored exactly when the
computation gives one. -/
theorem C176_run_partial (fr : FlagState → R) (s : Solver R) (w : World R) (sc : ScopeStack) (hp : Polite s)
    (hw : w.scope.WF) (hi : (s.init w).2 = .ok ()) (hpush : w.scope.push s.name .METHOD = (sc, .ok ()))
    (h1 : w.store.global (scopedName sc "warningFlag") = none)
    (h2 : w.store.global (scopedName sc "solveResult") = none) :
    let c := s.compute { (s.init w).1 with scope := sc }
    (run fr s w).2 = endOf c.2 ∧ (run fr s w).1.scope = w.scope ∧ (run fr s w).1.flag = {} ∧
      Saved fr sc c (run fr s w).1.store := by
  intro c
  have hpop := ScopeStack.pop_of_push hw hpush
  have hs0 := hp.initScope w
  have hs1 := hp.initStore w
  have hcs : c.1.scope = sc := hp.scope _
  have hcd := hp.defined { (s.init w).1 with scope := sc }
  have n1 : c.1.store.global (scopedName sc "warningFlag") = none :=
    compute_none (w := { (s.init w).1 with scope := sc }) hp (Or.inl rfl) (by simp only; rw [hs1]; exact h1)
  have n2 : c.1.store.global (scopedName sc "solveResult") = none :=
    compute_none (w := { (s.init w).1 with scope := sc }) hp (Or.inr rfl) (by simp only; rw [hs1]; exact h2)
  have hrun : run fr s w = block fr s (s.init w).1 := by
    unfold run
    generalize s.init w = q at hi
    obtain ⟨a, b⟩ := q
    simp only at hi; subst hi; rfl
  have hne : scopedName sc "warningFlag" ≠ scopedName sc "solveResult" := names_ne sc (by decide)
  have hcd' : c.2 ≠ .ub := hcd
  rw [hrun]
  unfold block body
  rw [hs0, hpush]
  simp only
  change _ ∧ _
  have hc : s.compute ⟨sc, (s.init w).1.store, (s.init w).1.flag⟩ = c := rfl
  rw [hc]
  clear hcd hc
  clear_value c
  obtain ⟨⟨csc, cst, cfl⟩, cr⟩ := c
  simp only at hcs n1 n2 hcd'
  subst hcs
  cases cr with
  | ub => exact absurd rfl hcd'
  | throw e =>
    simp only
    rw [leave_ok fr ⟨csc, cst, cfl⟩ (.throw e) hpop n1]
    refine ⟨rfl, rfl, rfl, ?_, ?_, ?_⟩
    · simp
    · simp only; rw [if_neg hne.symm, n2]
    · intro k k1 k2; simp only; rw [if_neg k1]
  | ok r =>
    simp only
    rw [store_none n2]
    simp only
    rw [leave_ok fr ⟨csc, _, cfl⟩ (.ok ()) hpop (by simp only; rw [if_neg hne, n1])]
    refine ⟨rfl, rfl, rfl, ?_, ?_, ?_⟩
    · simp
    · simp only; rw [if_neg hne.symm, if_pos trivial]
    · intro k k1 k2; simp only; rw [if_neg k1, if_neg k2]

/-- **C176** When the initialisation throws, nothing is stored, the scope is put back, and the warnings are not reset. -/
theorem C176_init_throws (fr : FlagState → R) (s : Solver R) (w : World R) (e : Err) (hp : Polite s)
    (hi : (s.init w).2 = .throw e) :
    (run fr s w).2 = .throws e ∧ (run fr s w).1.scope = w.scope ∧ (run fr s w).1.store = w.store ∧
      (run fr s w).1.flag = (s.init w).1.flag := by
  have hs0 := hp.initScope w
  have hs1 := hp.initStore w
  unfold run
  generalize s.init w = q at *
  obtain ⟨a, b⟩ := q
  simp only at hi hs0 hs1 ⊢; subst hi
  exact ⟨rfl, hs0, hs1, rfl⟩

/-- **C176, where it fails** When the name of the warnings is taken in the scope of the method, the run ends the program,
whatever the computation does. -/
theorem C176_taken_terminates (fr : FlagState → R) (s : Solver R) (w : World R) (sc : ScopeStack) (x : R) (hp : Polite s)
    (hi : (s.init w).2 = .ok ()) (hpush : w.scope.push s.name .METHOD = (sc, .ok ()))
    (h1 : w.store.global (scopedName sc "warningFlag") = some x) : (run fr s w).2 = .terminates := by
  have hs0 := hp.initScope w
  have hs1 := hp.initStore w
  have hcs := hp.scope { (s.init w).1 with scope := sc }
  have hcd := hp.defined { (s.init w).1 with scope := sc }
  have hk := hp.keeps { (s.init w).1 with scope := sc } (scopedName sc "warningFlag") x (by simp only; rw [hs1]; exact h1)
  have hrun : run fr s w = block fr s (s.init w).1 := by
    unfold run
    generalize s.init w = q at hi
    obtain ⟨a, b⟩ := q
    simp only at hi; subst hi; rfl
  rw [hrun]
  unfold block body
  rw [hs0, hpush]
  simp only
  generalize s.compute { (s.init w).1 with scope := sc } = c at *
  obtain ⟨⟨csc, cst, cfl⟩, cr⟩ := c
  simp only at hcs hk hcd
  subst hcs
  cases cr with
  | ub => exact absurd rfl hcd
  | throw e => simp only; rw [leave_taken fr ⟨csc, cst, cfl⟩ (.throw e) hk]
  | ok r =>
    simp only
    cases hq : cst.global (scopedName csc "solveResult") with
    | some y => rw [store_some hq]; simp only; rw [leave_taken fr ⟨csc, cst, cfl⟩ _ hk]
    | none =>
      rw [store_none hq]; simp only
      rw [leave_taken fr ⟨csc, _, cfl⟩ _ (x := x) (by
        simp only; rw [if_neg (names_ne csc (by decide)), hk])]

/-- **C176, where it fails** The same solver run twice in the same scope, the initialisation succeeding twice, ends the
program. -/
theorem C176_twice (fr : FlagState → R) (s : Solver R) (w : World R) (sc : ScopeStack) (hp : Polite s)
    (hw : w.scope.WF) (hi : ∀ v : World R, (s.init v).2 = .ok ()) (hpush : w.scope.push s.name .METHOD = (sc, .ok ()))
    (h1 : w.store.global (scopedName sc "warningFlag") = none)
    (h2 : w.store.global (scopedName sc "solveResult") = none) :
    (run fr s (run fr s w).1).2 = .terminates := by
  obtain ⟨-, hs, -, hsv, -, -⟩ := C176_run_partial fr s w sc hp hw (hi w) hpush h1 h2
  exact C176_taken_terminates fr s _ sc _ hp (hi _) (by rw [hs]; exact hpush) hsv

/-! ## A sequence of stages -/

/-- The scope of the method of a stage. -/
def scopeOf (j : Job R) : ScopeStack :=
  ((((ScopeStack.ofNames []).push j.model .SPECTRUMMODEL).1.push j.stage .STAGE).1.push j.solver.name .METHOD).1

/-- The scope of a stage. -/
def stageScope (j : Job R) : ScopeStack :=
  (((ScopeStack.ofNames []).push j.model .SPECTRUMMODEL).1.push j.stage .STAGE).1

theorem push1 (m : String) : (ScopeStack.ofNames []).push m .SPECTRUMMODEL =
    (((ScopeStack.ofNames []).push m .SPECTRUMMODEL).1, .ok ()) := rfl

theorem push2 (m st : String) : ((ScopeStack.ofNames []).push m .SPECTRUMMODEL).1.push st .STAGE =
    ((((ScopeStack.ofNames []).push m .SPECTRUMMODEL).1.push st .STAGE).1, .ok ()) := rfl

theorem push3 (j : Job R) : (stageScope j).push j.solver.name .METHOD = (scopeOf j, .ok ()) := rfl

theorem scopeOf_names (j : Job R) : (scopeOf j).names = [j.model, j.stage, j.solver.name] := rfl

theorem wf_stage (j : Job R) : (stageScope j).WF :=
  ScopeStack.wf_push (ScopeStack.wf_push (ScopeStack.wf_ofNames []) _ _) _ _

theorem withScope_of {name : String} {t : ScopeType} {f : World R → World R × End} {w : World R} {sc : ScopeStack}
    (hw : w.scope.WF) (hp : w.scope.push name t = (sc, .ok ()))
    (hs : (f { w with scope := sc }).1.scope = sc)
    (he : (f { w with scope := sc }).2 ≠ .terminates ∧ (f { w with scope := sc }).2 ≠ .undefined) :
    withScope name t f w =
      ({ (f { w with scope := sc }).1 with scope := w.scope }, (f { w with scope := sc }).2) := by
  unfold withScope
  rw [hp]
  simp only
  generalize f { w with scope := sc } = q at *
  obtain ⟨⟨a1, a2, a3⟩, b⟩ := q
  simp only at hs he
  subst hs
  have hpop := ScopeStack.pop_of_push hw hp
  cases b with
  | terminates => exact absurd rfl he.1
  | undefined => exact absurd rfl he.2
  | returns => simp only; rw [hpop]
  | throws e => simp only; rw [hpop]

/-- The end and the effects of a stage. -/
theorem stageRun_spec (fr : FlagState → R) (j : Job R) (w : World R) (hp : Polite j.solver)
    (hsc : w.scope = ScopeStack.ofNames [])
    (h1 : w.store.global (scopedName (scopeOf j) "warningFlag") = none)
    (h2 : w.store.global (scopedName (scopeOf j) "solveResult") = none) :
    (stageRun fr j w).1.scope = ScopeStack.ofNames [] ∧
    match j.solver.init { w with scope := stageScope j } with
    | (v, .ok ()) =>
      (stageRun fr j w).2 = endOf (j.solver.compute { v with scope := scopeOf j }).2 ∧ (stageRun fr j w).1.flag = {} ∧
      Saved fr (scopeOf j) (j.solver.compute { v with scope := scopeOf j }) (stageRun fr j w).1.store
    | (v, .throw e) =>
      (stageRun fr j w).2 = .throws e ∧ (stageRun fr j w).1.flag = v.flag ∧ (stageRun fr j w).1.store = w.store
    | (_, .ub) => False := by
  have hd := hp.initDefined { w with scope := stageScope j }
  have key : (run fr j.solver { w with scope := stageScope j }).1.scope = stageScope j ∧
      ((run fr j.solver { w with scope := stageScope j }).2 ≠ .terminates ∧
        (run fr j.solver { w with scope := stageScope j }).2 ≠ .undefined) ∧
      (match j.solver.init { w with scope := stageScope j } with
      | (v, .ok ()) =>
        (run fr j.solver { w with scope := stageScope j }).2 = endOf (j.solver.compute { v with scope := scopeOf j }).2 ∧
        (run fr j.solver { w with scope := stageScope j }).1.flag = {} ∧
        Saved fr (scopeOf j) (j.solver.compute { v with scope := scopeOf j })
          (run fr j.solver { w with scope := stageScope j }).1.store
      | (v, .throw e) =>
        (run fr j.solver { w with scope := stageScope j }).2 = .throws e ∧
        (run fr j.solver { w with scope := stageScope j }).1.flag = v.flag ∧
        (run fr j.solver { w with scope := stageScope j }).1.store = w.store
      | (_, .ub) => False) := by
    have hr := C176_run_partial fr j.solver { w with scope := stageScope j } (scopeOf j) hp (wf_stage j)
    have ht := C176_init_throws fr j.solver { w with scope := stageScope j }
    have hdc := fun v => hp.defined v
    cases hi : j.solver.init { w with scope := stageScope j } with
    | mk v q =>
      rw [hi] at hr ht hd
      cases q with
      | ub => exact absurd rfl hd
      | ok u =>
        obtain ⟨a, b, c, d⟩ := hr rfl (push3 j) h1 h2
        refine ⟨b, ?_, a, c, d⟩
        rw [a]
        have := hdc { v with scope := scopeOf j }
        generalize (j.solver.compute { v with scope := scopeOf j }).2 = z at this
        cases z with
        | ub => exact absurd rfl this
        | ok r => exact ⟨by simp [endOf], by simp [endOf]⟩
        | throw e => exact ⟨by simp [endOf], by simp [endOf]⟩
      | throw e =>
        obtain ⟨a, b, c, d⟩ := ht e hp rfl
        refine ⟨b, ?_, a, d, c⟩
        rw [a]; exact ⟨by simp, by simp⟩
  obtain ⟨k1, k2, k3⟩ := key
  have e1 : withScope j.stage .STAGE (run fr j.solver)
      { w with scope := ((ScopeStack.ofNames []).push j.model .SPECTRUMMODEL).1 } =
      ({ (run fr j.solver { w with scope := stageScope j }).1 with
          scope := ((ScopeStack.ofNames []).push j.model .SPECTRUMMODEL).1 },
        (run fr j.solver { w with scope := stageScope j }).2) :=
    withScope_of (w := { w with scope := ((ScopeStack.ofNames []).push j.model .SPECTRUMMODEL).1 })
      (ScopeStack.wf_push (ScopeStack.wf_ofNames []) _ _) (push2 j.model j.stage) k1 k2
  have e2 : stageRun fr j w =
      ({ (run fr j.solver { w with scope := stageScope j }).1 with scope := ScopeStack.ofNames [] },
        (run fr j.solver { w with scope := stageScope j }).2) := by
    unfold stageRun
    rw [withScope_of (sc := ((ScopeStack.ofNames []).push j.model .SPECTRUMMODEL).1)
      (by rw [hsc]; exact ScopeStack.wf_ofNames []) (by rw [hsc]; exact push1 j.model)
      (by rw [e1]) (by rw [e1]; exact k2)]
    rw [e1, hsc]
  rw [e2]
  exact ⟨rfl, k3⟩

theorem stageRun_end (fr : FlagState → R) (j : Job R) (w : World R) (hp : Polite j.solver)
    (hsc : w.scope = ScopeStack.ofNames [])
    (h1 : w.store.global (scopedName (scopeOf j) "warningFlag") = none)
    (h2 : w.store.global (scopedName (scopeOf j) "solveResult") = none) :
    (stageRun fr j w).2 = .returns ∨ ∃ e, (stageRun fr j w).2 = .throws e := by
  have h := (stageRun_spec fr j w hp hsc h1 h2).2
  cases hi : j.solver.init { w with scope := stageScope j } with
  | mk v q =>
    rw [hi] at h
    cases q with
    | ub => exact h.elim
    | throw e => exact Or.inr ⟨e, h.1⟩
    | ok u =>
      have h' := h.1
      have := hp.defined { v with scope := scopeOf j }
      rw [h']
      generalize (j.solver.compute { v with scope := scopeOf j }).2 = z at this
      cases z with
      | ub => exact absurd rfl this
      | ok r => exact Or.inl rfl
      | throw e => exact Or.inr ⟨e, rfl⟩

/-- A stage only adds results, in its scope. -/
theorem stageRun_frame (fr : FlagState → R) (j : Job R) (w : World R) (hp : Polite j.solver)
    (hsc : w.scope = ScopeStack.ofNames [])
    (h1 : w.store.global (scopedName (scopeOf j) "warningFlag") = none)
    (h2 : w.store.global (scopedName (scopeOf j) "solveResult") = none) (k : String)
    (hk : ∀ n, k ≠ scopedName (scopeOf j) n) : (stageRun fr j w).1.store.global k = w.store.global k := by
  have h := (stageRun_spec fr j w hp hsc h1 h2).2
  have hs := hp.initStore { w with scope := stageScope j }
  cases hi : j.solver.init { w with scope := stageScope j } with
  | mk v q =>
    rw [hi] at h hs
    simp only at hs
    cases q with
    | ub => exact h.elim
    | throw e => rw [h.2.2]
    | ok u =>
      rw [h.2.2.2.2 k (hk _) (hk _)]
      cases hg : w.store.global k with
      | some r =>
        exact hp.keeps { v with scope := scopeOf j } k r (by simp only; rw [hs]; exact hg)
      | none =>
        apply Classical.byContradiction
        intro hc
        obtain ⟨n, e, -, -⟩ := hp.adds { v with scope := scopeOf j } k (by simp only; rw [hs]; exact hg) hc
        exact hk n e

/-- Two stages with different models, stages or methods. -/
def Apart (a b : Job R) : Prop := ¬ (a.model = b.model ∧ a.stage = b.stage ∧ a.solver.name = b.solver.name)

/-- Names without dots. -/
def Named (j : Job R) : Prop := Simple j.model ∧ Simple j.stage ∧ Simple j.solver.name

theorem apart_names {a b : Job R} (ha : Named a) (hb : Named b) (h : Apart a b) (n m : String) :
    scopedName (scopeOf a) n ≠ scopedName (scopeOf b) m := by
  intro e
  have sa : ∀ x ∈ (scopeOf a).names, Simple x := by
    rw [scopeOf_names]; intro x hx; simp at hx; rcases hx with rfl | rfl | rfl
    · exact ha.1
    · exact ha.2.1
    · exact ha.2.2
  have sb : ∀ x ∈ (scopeOf b).names, Simple x := by
    rw [scopeOf_names]; intro x hx; simp at hx; rcases hx with rfl | rfl | rfl
    · exact hb.1
    · exact hb.2.1
    · exact hb.2.2
  have h1 := C16_scopedName_components (scopeOf a) sa n
  rw [e, C16_scopedName_components (scopeOf b) sb m] at h1
  have h2 := (List.append_inj h1 (by simp [scopeOf_names])).1
  have h3 := map_toList_injective h2
  rw [scopeOf_names, scopeOf_names] at h3
  simp only [List.cons.injEq, and_true] at h3
  exact h ⟨h3.1.symm, h3.2.1.symm, h3.2.2.symm⟩

theorem session_cons (fr : FlagState → R) (j : Job R) (js : List (Job R)) (w : World R)
    (h : (stageRun fr j w).2 = .returns ∨ ∃ e, (stageRun fr j w).2 = .throws e) :
    session fr (j :: js) w =
      ((session fr js (stageRun fr j w).1).1, (stageRun fr j w).2 :: (session fr js (stageRun fr j w).1).2) := by
  simp only [session]
  generalize stageRun fr j w = q at *
  obtain ⟨a, b⟩ := q
  simp only at h ⊢
  rcases h with rfl | ⟨e, rfl⟩ <;> rfl

/-- Nothing in the scopes of the stages. -/
def Free (js : List (Job R)) (w : World R) : Prop :=
  ∀ j ∈ js, ∀ n, w.store.global (scopedName (scopeOf j) n) = none

theorem free_next (fr : FlagState → R) {j : Job R} {js : List (Job R)} {w : World R} (hp : Polite j.solver)
    (hsc : w.scope = ScopeStack.ofNames []) (hn : ∀ a ∈ j :: js, Named a) (hd : ∀ b ∈ js, Apart j b)
    (hf : Free (j :: js) w) : Free js (stageRun fr j w).1 := by
  intro b hb n
  rw [stageRun_frame fr j w hp hsc (hf j (by simp) _) (hf j (by simp) _) _
    (fun m => (apart_names (hn j (by simp)) (hn b (by simp [hb])) (hd b hb) m n).symm)]
  exact hf b (by simp [hb]) n

/-- **C177** A sequence of stages with different models, stages or methods, the solvers keeping to their scopes: the program
is never ended by one of them, each stage has its end, and the scope is empty at the end. -/
theorem C177_ends (fr : FlagState → R) (js : List (Job R)) (w : World R) (hp : ∀ j ∈ js, Polite j.solver)
    (hn : ∀ j ∈ js, Named j) (hd : js.Pairwise Apart) (hf : Free js w) (hsc : w.scope = ScopeStack.ofNames []) :
    (session fr js w).2.length = js.length ∧ (session fr js w).1.scope = ScopeStack.ofNames [] ∧
      ∀ e ∈ (session fr js w).2, e = .returns ∨ ∃ x, e = .throws x := by
  induction js generalizing w with
  | nil => exact ⟨rfl, hsc, fun e he => by simp [session] at he⟩
  | cons j js ih =>
    have p0 := hp j (by simp)
    have f1 := hf j (by simp) "warningFlag"
    have f2 := hf j (by simp) "solveResult"
    have he := stageRun_end fr j w p0 hsc f1 f2
    rw [List.pairwise_cons] at hd
    obtain ⟨a, b, c⟩ := ih (stageRun fr j w).1 (fun x hx => hp x (by simp [hx])) (fun x hx => hn x (by simp [hx])) hd.2
      (free_next fr p0 hsc hn hd.1 hf) (stageRun_spec fr j w p0 hsc f1 f2).1
    rw [session_cons fr j js w he]
    refine ⟨by simp [a], b, ?_⟩
    intro e hx
    rcases List.mem_cons.1 hx with rfl | hx
    · exact he
    · exact c e hx

theorem session_frame (fr : FlagState → R) (js : List (Job R)) (w : World R) (hp : ∀ j ∈ js, Polite j.solver)
    (hn : ∀ j ∈ js, Named j) (hd : js.Pairwise Apart) (hf : Free js w) (hsc : w.scope = ScopeStack.ofNames [])
    (k : String) (hk : ∀ j ∈ js, ∀ n, k ≠ scopedName (scopeOf j) n) :
    (session fr js w).1.store.global k = w.store.global k := by
  induction js generalizing w with
  | nil => rfl
  | cons j js ih =>
    have p0 := hp j (by simp)
    have f1 := hf j (by simp) "warningFlag"
    have f2 := hf j (by simp) "solveResult"
    rw [List.pairwise_cons] at hd
    rw [session_cons fr j js w (stageRun_end fr j w p0 hsc f1 f2)]
    simp only
    rw [ih (stageRun fr j w).1 (fun x hx => hp x (by simp [hx])) (fun x hx => hn x (by simp [hx])) hd.2
      (free_next fr p0 hsc hn hd.1 hf) (stageRun_spec fr j w p0 hsc f1 f2).1 (fun x hx => hk x (by simp [hx]))]
    exact stageRun_frame fr j w p0 hsc f1 f2 k (hk j (by simp))

/-- **C177** The end of each stage is that of its run after the stages before it, and what it left in its scope is there,
unchanged, after the stages that follow. -/
theorem C177_results (fr : FlagState → R) (js : List (Job R)) (w : World R) (hp : ∀ j ∈ js, Polite j.solver)
    (hn : ∀ j ∈ js, Named j) (hd : js.Pairwise Apart) (hf : Free js w) (hsc : w.scope = ScopeStack.ofNames [])
    (i : Nat) (j : Job R) (hi : js[i]? = some j) :
    (session fr js w).2[i]? = some (stageRun fr j (session fr (js.take i) w).1).2 ∧
    ∀ n, (session fr js w).1.store.global (scopedName (scopeOf j) n) =
      (stageRun fr j (session fr (js.take i) w).1).1.store.global (scopedName (scopeOf j) n) := by
  induction js generalizing w i with
  | nil => simp at hi
  | cons a js ih =>
    have p0 := hp a (by simp)
    have f1 := hf a (by simp) "warningFlag"
    have f2 := hf a (by simp) "solveResult"
    have he := stageRun_end fr a w p0 hsc f1 f2
    rw [List.pairwise_cons] at hd
    have hp' : ∀ j ∈ js, Polite j.solver := fun x hx => hp x (by simp [hx])
    have hn' : ∀ j ∈ js, Named j := fun x hx => hn x (by simp [hx])
    have hf' := free_next fr p0 hsc hn hd.1 hf
    have hs' := (stageRun_spec fr a w p0 hsc f1 f2).1
    rw [session_cons fr a js w he]
    cases i with
    | zero =>
      simp only [List.getElem?_cons_zero, Option.some.injEq] at hi
      subst hi
      refine ⟨by simp [session], fun n => ?_⟩
      simp only [List.take_zero, session]
      exact session_frame fr js _ hp' hn' hd.2 hf' hs' _
        (fun b hb m => apart_names (hn a (by simp)) (hn b (by simp [hb])) (hd.1 b hb) n m)
    | succ i =>
      simp only [List.getElem?_cons_succ] at hi
      have := ih (stageRun fr a w).1 hp' hn' hd.2 hf' hs' i hi
      rw [List.take_succ_cons, session_cons fr a (js.take i) w he]
      exact this

/-- The key of the getter with four arguments. -/
theorem fullname_eq (j : Job R) (h : Named j) (n : String) :
    ResultStore.buildFullname j.model j.stage j.solver.name n = scopedName (scopeOf j) n := by
  have e : ∀ x : String, x ≠ "" → x.isEmpty = false := by
    intro x hx; rw [Bool.eq_false_iff]; intro h'; exact hx (by simpa using h')
  have hne := dotFold_toList_ne j.model h.1.2 [j.stage, j.solver.name]
  unfold scopedName
  rw [scopeOf_names]
  simp only [currentScopeName]
  rw [appendName_of_ne hne]
  simp only [ResultStore.buildFullname, e _ h.1.2, e _ h.2.1.2, e _ h.2.2.2]
  simp [dotFold, String.append_assoc]

/-- **C177** After the sequence, a stage has a solver result exactly when its run returned. -/
theorem C177_hasResult (fr : FlagState → R) (js : List (Job R)) (w : World R) (hp : ∀ j ∈ js, Polite j.solver)
    (hn : ∀ j ∈ js, Named j) (hd : js.Pairwise Apart) (hf : Free js w) (hsc : w.scope = ScopeStack.ofNames [])
    (i : Nat) (j : Job R) (hi : js[i]? = some j) :
    (session fr js w).1.store.hasDataset j.model j.stage j.solver.name "solveResult" = true ↔
      (session fr js w).2[i]? = some .returns := by
  obtain ⟨h1, h2⟩ := C177_results fr js w hp hn hd hf hsc i j hi
  have hj : j ∈ js := List.mem_of_getElem? hi
  unfold ResultStore.hasDataset
  rw [fullname_eq j (hn j hj), h2, h1]
  set w' := (session fr (js.take i) w).1 with hw'
  have hsub : ∀ x ∈ js.take i, x ∈ js := fun x hx => List.mem_of_mem_take hx
  have hpw : (js.take i).Pairwise Apart := hd.sublist (List.take_sublist _ _)
  have hs0 : w'.scope = ScopeStack.ofNames [] :=
    (C177_ends fr (js.take i) w (fun x hx => hp x (hsub x hx)) (fun x hx => hn x (hsub x hx)) hpw
      (fun x hx => hf x (hsub x hx)) hsc).2.1
  have hfree : ∀ n, w'.store.global (scopedName (scopeOf j) n) = none := by
    intro n
    rw [hw', session_frame fr (js.take i) w (fun x hx => hp x (hsub x hx)) (fun x hx => hn x (hsub x hx)) hpw
      (fun x hx => hf x (hsub x hx)) hsc]
    · exact hf j hj n
    · intro b hb m
      refine (apart_names (hn b (hsub b hb)) (hn j hj) ?_ m n).symm
      obtain ⟨q, hq, rfl⟩ := List.getElem_of_mem hb
      rw [List.getElem_take]
      have hil : i < js.length := by
        rcases Nat.lt_or_ge i js.length with h | h
        · exact h
        · rw [List.getElem?_eq_none h] at hi; cases hi
      rw [List.getElem?_eq_getElem hil, Option.some.injEq] at hi
      rw [← hi]
      rw [List.length_take] at hq
      exact List.pairwise_iff_getElem.1 hd q i (by omega) hil (by omega)
  have hsp := (stageRun_spec fr j w' (hp j hj) hs0 (hfree _) (hfree _)).2
  cases hii : j.solver.init { w' with scope := stageScope j } with
  | mk v q =>
    rw [hii] at hsp
    cases q with
    | ub => exact hsp.elim
    | throw e => rw [hsp.1, hsp.2.2, hfree]; simp
    | ok u =>
      rw [hsp.1, hsp.2.2.2.1]
      generalize (j.solver.compute { v with scope := scopeOf j }).2 = z
      cases z <;> simp [endOf]

/-- **C177, a limit** The warnings of an initialisation that throws are neither saved nor reset: when the next solver changes
no warning, they are saved as those of that solver. -/
theorem C177_leak (fr : FlagState → R) (a b : Job R) (w : World R) (e : Err) (ha : Polite a.solver) (hb : Polite b.solver)
    (na : Named a) (nb : Named b) (hab : Apart a b) (hf : Free [a, b] w) (hsc : w.scope = ScopeStack.ofNames [])
    (h1 : (a.solver.init { w with scope := stageScope a }).2 = .throw e)
    (h2 : ∀ v, (b.solver.init v).2 = .ok () ∧ (b.solver.init v).1.flag = v.flag) (h3 : ∀ v, (b.solver.compute v).1.flag = v.flag) :
    (session fr [a, b] w).1.store.getGlobal4 a.model a.stage a.solver.name "warningFlag" = .throw .UNKNOWN_ATTRIBUTE ∧
    (session fr [a, b] w).1.store.getGlobal4 b.model b.stage b.solver.name "warningFlag" =
      .ok (fr (a.solver.init { w with scope := stageScope a }).1.flag) := by
  have hp : ∀ j ∈ [a, b], Polite j.solver := by
    intro j hj; simp at hj; rcases hj with rfl | rfl <;> assumption
  have hn : ∀ j ∈ [a, b], Named j := by
    intro j hj; simp at hj; rcases hj with rfl | rfl <;> assumption
  have hd : [a, b].Pairwise Apart := by simp [hab]
  have ra := (C177_results fr [a, b] w hp hn hd hf hsc 0 a rfl).2 "warningFlag"
  have rb := (C177_results fr [a, b] w hp hn hd hf hsc 1 b rfl).2 "warningFlag"
  have sa := stageRun_spec fr a w ha hsc (hf a (by simp) _) (hf a (by simp) _)
  have e0 : session fr ([a, b].take 0) w = (w, []) := rfl
  have e1 : ∀ v : World R, session fr [] v = (v, []) := fun _ => rfl
  rw [e0] at ra
  rw [show [a, b].take 1 = [a] from rfl,
    session_cons fr a [] w (stageRun_end fr a w ha hsc (hf a (by simp) _) (hf a (by simp) _)), e1] at rb
  simp only at ra rb
  unfold ResultStore.getGlobal4 ResultStore.getGlobal
  rw [fullname_eq a na, fullname_eq b nb, ra, rb]
  generalize a.solver.init { w with scope := stageScope a } = qa at sa h1
  obtain ⟨v, r⟩ := qa
  simp only at h1; subst h1
  obtain ⟨s0, s1, s2, s3⟩ := sa
  refine ⟨by rw [s3, hf a (by simp)], ?_⟩
  have fb := free_next fr ha hsc hn (by simpa using hab) hf
  have sb := (stageRun_spec fr b (stageRun fr a w).1 hb s0 (fb b (by simp) _) (fb b (by simp) _)).2
  have hi := h2 { (stageRun fr a w).1 with scope := stageScope b }
  generalize b.solver.init { (stageRun fr a w).1 with scope := stageScope b } = qb at sb hi
  obtain ⟨u, r⟩ := qb
  simp only at hi
  obtain ⟨hi1, hi2⟩ := hi
  subst hi1
  rw [sb.2.2.1, h3, hi2, s2]

/-! ## Concrete cases -/

/-- A solver that warns, adds a result in its scope, and gives a result or throws. -/
def sample (name : String) (r : Res Nat) : Solver Nat where
  name := name
  init := fun w => (w, .ok ())
  compute := fun w =>
    ({ w with flag := w.flag.step (.warning .PDF_PEAK_NOT_FOUND "no peak"),
              store := (w.store.storeScopedGlobal w.scope "pdf" 5).1 }, r)

theorem sample_polite (name : String) (r : Res Nat) (h : r ≠ .ub) : Polite (sample name r) := by
  refine ⟨fun _ => rfl, fun _ => rfl, fun _ => by simp [sample], fun _ => rfl, fun _ => h, ?_, ?_⟩
  · intro w k x hk
    simp only [sample]
    cases hg : w.store.global (scopedName w.scope "pdf") with
    | some y => rw [store_some hg]; exact hk
    | none =>
      rw [store_none hg]; simp only
      rw [if_neg (by rintro rfl; rw [hg] at hk; cases hk)]; exact hk
  · intro w k hk hc
    simp only [sample] at hc
    cases hg : w.store.global (scopedName w.scope "pdf") with
    | some y => rw [store_some hg] at hc; exact absurd hk hc
    | none =>
      rw [store_none hg] at hc; simp only at hc
      by_cases e : k = scopedName w.scope "pdf"
      · exact ⟨"pdf", e, by decide, by decide⟩
      · rw [if_neg e] at hc; exact absurd hk hc

/-- A solver whose initialisation warns and throws. -/
def failing (name : String) : Solver Nat where
  name := name
  init := fun w => ({ w with flag := w.flag.step (.warning .UNUSED_PARAMETER "unused") }, .throw .INTERNAL_ERROR)
  compute := fun w => (w, .ok 0)

theorem failing_polite (name : String) : Polite (failing name) :=
  ⟨fun _ => rfl, fun _ => rfl, fun _ => by simp [failing], fun _ => rfl, fun _ => by simp [failing], fun _ _ _ h => h,
    fun _ _ h hc => absurd h hc⟩

/-- A solver that changes no warning. -/
def quiet (name : String) : Solver Nat where
  name := name
  init := fun w => (w, .ok ())
  compute := fun w => (w, .ok 7)

theorem quiet_polite (name : String) : Polite (quiet name) :=
  ⟨fun _ => rfl, fun _ => rfl, fun _ => by simp [quiet], fun _ => rfl, fun _ => by simp [quiet], fun _ _ _ h => h,
    fun _ _ h hc => absurd h hc⟩

/-- The stages of a galaxy and of a star; the computation for the star throws. -/
def jobs : List (Job Nat) :=
  [⟨"galaxy", "redshiftSolver", sample "lineModelSolve" (.ok 1)⟩, ⟨"star", "redshiftSolver", sample "templateFittingSolve"
    (.throw .INTERNAL_ERROR)⟩, ⟨"galaxy", "lineMeasSolver", sample "lineMeasSolve" (.ok 2)⟩]

/-- The world at the start. -/
def world0 : World Nat := ⟨ScopeStack.ofNames [], {}, {}⟩

/-- The number of messages as the result of the warnings. -/
def count (f : FlagState) : Nat := f.messages.length

theorem jobs_ok : (∀ j ∈ jobs, Polite j.solver) ∧ (∀ j ∈ jobs, Named j) ∧ jobs.Pairwise Apart ∧ Free jobs world0 := by
  refine ⟨?_, ?_, ?_, fun _ _ _ => rfl⟩
  · intro j hj
    simp only [jobs, List.mem_cons, List.not_mem_nil, or_false] at hj
    rcases hj with rfl | rfl | rfl <;> exact sample_polite _ _ (by simp)
  · intro j hj
    simp only [jobs, List.mem_cons, List.not_mem_nil, or_false] at hj
    rcases hj with rfl | rfl | rfl <;>
      exact ⟨⟨by decide, by decide⟩, ⟨by decide, by decide⟩, ⟨by decide, by decide⟩⟩
  · simp only [jobs, List.pairwise_cons, List.mem_cons, List.not_mem_nil, or_false]
    refine ⟨?_, ?_, ?_⟩
    · intro a ha; rcases ha with rfl | rfl <;> simp [Apart, sample]
    · intro a ha; subst ha; simp [Apart, sample]
    · exact ⟨fun a ha => ha.elim, List.Pairwise.nil⟩

/-- The galaxy has a result, the star has not. -/
example : (session count jobs world0).1.store.hasDataset "galaxy" "redshiftSolver" "lineModelSolve" "solveResult" = true :=
  (C177_hasResult count jobs world0 jobs_ok.1 jobs_ok.2.1 jobs_ok.2.2.1 jobs_ok.2.2.2 rfl 0 _ rfl).2 (by decide +kernel)

example : (session count jobs world0).2 = [.returns, .throws .INTERNAL_ERROR, .returns] := by decide +kernel

example : (session count jobs world0).1.store.getGlobal4 "star" "redshiftSolver" "templateFittingSolve" "warningFlag" = .ok 1 ∧
    (session count jobs world0).1.store.getGlobal4 "galaxy" "lineMeasSolver" "lineMeasSolve" "solveResult" = .ok 2 := by
  constructor <;> decide +kernel

/-- Twice the same stage. -/
example : (run count (sample "m" (.ok 1)) (run count (sample "m" (.ok 1))
    ⟨stageScope ⟨"galaxy", "s", sample "m" (.ok 1)⟩, {}, {}⟩).1).2 = .terminates :=
  C176_twice count (sample "m" (.ok 1)) _ (scopeOf ⟨"galaxy", "s", sample "m" (.ok 1)⟩) (sample_polite _ _ (by simp))
    (wf_stage _) (fun _ => rfl) rfl rfl rfl

/-- The warning of the failed initialisation is that of the next solver. -/
example : (session count [⟨"galaxy", "s", failing "m"⟩, ⟨"star", "s", quiet "m"⟩] world0).1.store.getGlobal4 "star" "s" "m"
    "warningFlag" = .ok 1 :=
  (C177_leak count ⟨"galaxy", "s", failing "m"⟩ ⟨"star", "s", quiet "m"⟩ world0 .INTERNAL_ERROR (failing_polite _)
    (quiet_polite _) ⟨⟨by decide, by decide⟩, ⟨by decide, by decide⟩, ⟨by decide, by decide⟩⟩
    ⟨⟨by decide, by decide⟩, ⟨by decide, by decide⟩, ⟨by decide, by decide⟩⟩ (by simp [Apart]) (fun _ _ _ => rfl) rfl rfl
    (fun _ => ⟨rfl, rfl⟩) (fun _ => rfl)).2

end SolveRun
end Amazed
