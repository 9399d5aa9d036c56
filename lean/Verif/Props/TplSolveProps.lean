import Verif.Model.TplSolve
import Verif.Props.ResultStoreProps
import Mathlib.Algebra.Order.Ring.Rat
import Mathlib.Tactic.Linarith

set_option linter.unusedVariables false
set_option linter.unusedSectionVars false

/-! # C141, C142, C145: components, scopes and templates of the template fitting and template combination solvers -/

namespace Amazed
namespace TplSolve
open ResultStore

variable {R : Type}

/-! ## Specification -/

/-- The fits that a request makes, in order: the component and whether dust is fitted. Dust is not fitted on the component without continuum; when all the
components are asked for, it is not fitted either on the continuum, which comes after. -/
def fitsOf (dust : Bool) : Comp → List (EType × Bool)
  | .one .raw => [(.raw, dust)]
  | .one .continuumOnly => [(.continuumOnly, dust)]
  | .one .noContinuum => [(.noContinuum, false)]
  | .all => [(.raw, dust), (.noContinuum, false), (.continuumOnly, false)]

/-- Where the result of a component of a template is kept. -/
def tfSlot (sc : ScopeStack) (n : String) (t : EType) : Slot := .template n (scopedName sc (tfScope t))

/-- Where the result of a component of the combination is kept. -/
def tcSlot (sc : ScopeStack) (t : EType) : Slot := .global (scopedName sc (tcScope t))

/-! ## Lemmas -/

theorem scopedName_join (sc : ScopeStack) (n : String) : scopedName sc n = joinPath (currentScopeName sc.names) n := by
  unfold scopedName joinPath
  by_cases he : currentScopeName sc.names = ""
  · rw [he, appendName_empty, if_pos rfl]
  · rw [appendName_of_ne he, if_neg he]

theorem joinPath_inj {p a b : String} (h : joinPath p a = joinPath p b) : a = b := by
  unfold joinPath at h
  split_ifs at h with h0
  · exact h
  · have := congrArg String.toList h
    simp only [String.toList_append, List.append_cancel_left_eq] at this
    exact String.toList_injective this

theorem tfScope_inj {a b : EType} (h : tfScope a = tfScope b) : a = b := by
  cases a <;> cases b <;> first | rfl | (revert h; decide)

theorem tcScope_inj {a b : EType} (h : tcScope a = tcScope b) : a = b := by
  cases a <;> cases b <;> first | rfl | (revert h; decide)

theorem tfSlot_inj {sc : ScopeStack} {n m : String} {a b : EType} (h : tfSlot sc n a = tfSlot sc m b) : n = m ∧ a = b := by
  unfold tfSlot at h
  rw [Slot.template.injEq, scopedName_join, scopedName_join] at h
  exact ⟨h.1, tfScope_inj (joinPath_inj h.2)⟩

theorem tcSlot_inj {sc : ScopeStack} {a b : EType} (h : tcSlot sc a = tcSlot sc b) : a = b := by
  unfold tcSlot at h
  rw [Slot.global.injEq, scopedName_join, scopedName_join] at h
  exact tcScope_inj (joinPath_inj h)

/-- The dust flags of the turns. -/
def flags : List EType → Bool → List (EType × Bool)
  | [], _ => []
  | t :: ts, d => (t, if t = .noContinuum then false else d) :: flags ts (if t = .noContinuum then false else d)

theorem flags_types (dust : Bool) (c : Comp) : flags c.types dust = fitsOf dust c := by
  cases c with
  | one t => cases t <;> rfl
  | all => rfl

theorem flags_fst : ∀ (ts : List EType) (d : Bool), (flags ts d).map Prod.fst = ts := by
  intro ts
  induction ts with
  | nil => intro d; rfl
  | cons t ts ih => intro d; simp [flags, ih]

theorem types_nodup (c : Comp) : c.types.Nodup := by cases c <;> simp [Comp.types]

/-- What a turn does to the store. -/
theorem perTemplate_step (s : ResultStore R) (sc : ScopeStack) (n : String) (t : EType) (r : R) :
    (s.storeScopedPerTemplate sc n (tfScope t) r).2 = (if (s.content (tfSlot sc n t)).isNone then .ok () else .throw .INTERNAL_ERROR) ∧
    ∀ sl, (s.storeScopedPerTemplate sc n (tfScope t) r).1.content sl =
      if sl = tfSlot sc n t then (match s.content (tfSlot sc n t) with | some x => some x | none => some r) else s.content sl := by
  have := step_store s (.perTemplate n (currentScopeName sc.names) (tfScope t) r) (tfSlot sc n t) r (by
    unfold tfSlot; rw [scopedName_join]; rfl)
  exact this

theorem global_step (s : ResultStore R) (sc : ScopeStack) (t : EType) (r : R) :
    (s.storeScopedGlobal sc (tcScope t) r).2 = (if (s.content (tcSlot sc t)).isNone then .ok () else .throw .INTERNAL_ERROR) ∧
    ∀ sl, (s.storeScopedGlobal sc (tcScope t) r).1.content sl =
      if sl = tcSlot sc t then (match s.content (tcSlot sc t) with | some x => some x | none => some r) else s.content sl := by
  have := step_store s (.global (currentScopeName sc.names) (tcScope t) r) (tcSlot sc t) r (by
    unfold tcSlot; rw [scopedName_join]; rfl)
  exact this

/-! ## Template fitting -/

theorem tfTurn_ok {op : List EType → EType → Bool → Bool → Res (Option R)} {sc : ScopeStack} {igm : Bool} {n : String} {s s' : St R} {dust d : Bool} {t : EType}
    (h : tfTurn op sc igm n s dust t = ((s', d), .ok ())) :
    d = (if t = .noContinuum then false else dust) ∧ s'.spc = s.spc.map (fun _ => t) ∧ (∀ m, s'.tpl m = if m = n then t else s.tpl m) ∧
    ∃ r, op (s.spc.map fun _ => t) t igm d = .ok (some r) ∧ s.store.content (tfSlot sc n t) = none ∧
      ∀ sl, s'.store.content sl = if sl = tfSlot sc n t then some r else s.store.content sl := by
  unfold tfTurn at h
  simp only at h
  have ht : (s.setTypes [n] t).tpl n = t := by simp [St.setTypes]
  rw [ht] at h
  generalize hd : (if t = .noContinuum then false else dust) = d0 at h
  cases ho : op (s.setTypes [n] t).spc t igm d0 with
  | ok o =>
    rw [ho] at h
    cases o with
    | none => simp at h
    | some r =>
      simp only [Prod.mk.injEq] at h
      obtain ⟨⟨h1, h2⟩, h3⟩ := h
      obtain ⟨g1, g2⟩ := perTemplate_step s.store sc n t r
      have hst : (s.setTypes [n] t).store = s.store := rfl
      rw [hst] at h1 h3
      rw [g1] at h3
      have hnone : s.store.content (tfSlot sc n t) = none := by
        cases hc : s.store.content (tfSlot sc n t) with
        | none => rfl
        | some x => rw [hc] at h3; simp at h3
      subst h2
      refine ⟨rfl, by rw [← h1]; rfl, ?_, r, ho, hnone, ?_⟩
      · intro m; rw [← h1]; simp [St.setTypes]
      · intro sl; rw [← h1]; simp only; rw [g2, hnone]
  | throw e => rw [ho] at h; simp at h
  | ub => rw [ho] at h; simp at h

theorem tfTurn_total {op : List EType → EType → Bool → Bool → Res (Option R)} {sc : ScopeStack} {igm : Bool} {n : String} {s : St R} {dust : Bool} {t : EType} {r : R}
    (h : op (s.spc.map fun _ => t) t igm (if t = .noContinuum then false else dust) = .ok (some r)) (hf : s.store.content (tfSlot sc n t) = none) :
    ∃ s', tfTurn op sc igm n s dust t = ((s', if t = .noContinuum then false else dust), .ok ()) := by
  unfold tfTurn
  simp only
  have ht : (s.setTypes [n] t).tpl n = t := by simp [St.setTypes]
  have hs : (s.setTypes [n] t).spc = s.spc.map fun _ => t := rfl
  rw [ht, hs, h]
  obtain ⟨g1, -⟩ := perTemplate_step s.store sc n t r
  refine ⟨_, Prod.ext rfl ?_⟩
  simp only
  have hst : (s.setTypes [n] t).store = s.store := rfl
  rw [hst, g1, hf]; rfl

theorem tfLoop_ok {op : List EType → EType → Bool → Bool → Res (Option R)} {sc : ScopeStack} {igm : Bool} {n : String} :
    ∀ (ts : List EType) (s s' : St R) (dust : Bool), ts.Nodup → tfLoop op sc igm n ts s dust = (s', .ok ()) →
    (∀ m, m ≠ n → s'.tpl m = s.tpl m) ∧ s'.spc.length = s.spc.length ∧
    (∀ x ∈ flags ts dust, ∃ r, op (s.spc.map fun _ => x.1) x.1 igm x.2 = .ok (some r) ∧ s.store.content (tfSlot sc n x.1) = none ∧ s'.store.content (tfSlot sc n x.1) = some r) ∧
    ∀ sl, (∀ t ∈ ts, sl ≠ tfSlot sc n t) → s'.store.content sl = s.store.content sl := by
  intro ts
  induction ts with
  | nil =>
    intro s s' dust _ h
    unfold tfLoop at h
    simp only [Prod.mk.injEq, and_true] at h
    subst h
    exact ⟨fun _ _ => rfl, rfl, by simp [flags], fun _ _ => rfl⟩
  | cons t ts ih =>
    intro s s' dust hnd h
    rw [List.nodup_cons] at hnd
    unfold tfLoop at h
    rcases hT : tfTurn op sc igm n s dust t with ⟨⟨s1, d⟩, x⟩
    rw [hT] at h
    cases x with
    | ok u =>
      obtain ⟨e1, e2, e3, r, e4, e5, e6⟩ := tfTurn_ok hT
      simp only at h
      obtain ⟨f1, f2, f3, f4⟩ := ih s1 s' d hnd.2 h
      refine ⟨?_, ?_, ?_, ?_⟩
      · intro m hm; rw [f1 m hm, e3, if_neg hm]
      · rw [f2, e2, List.length_map]
      · intro x hx
        unfold flags at hx
        rcases List.mem_cons.1 hx with rfl | hx
        · rw [← e1]
          refine ⟨r, e4, e5, ?_⟩
          simp only
          rw [f4, e6, if_pos rfl]
          intro t' ht' he
          exact hnd.1 ((tfSlot_inj he).2 ▸ ht')
        · rw [← e1] at hx
          obtain ⟨r', g1, g2, g3⟩ := f3 x hx
          have hx1 : x.1 ∈ ts := by rw [← flags_fst ts d]; exact List.mem_map_of_mem hx
          have hne : tfSlot sc n x.1 ≠ tfSlot sc n t := fun he => hnd.1 ((tfSlot_inj he).2 ▸ hx1)
          rw [e2, List.map_map] at g1
          rw [e6, if_neg hne] at g2
          exact ⟨r', g1, g2, g3⟩
      · intro sl hsl
        rw [f4 sl fun t' ht' => hsl t' (by simp [ht']), e6, if_neg (hsl t (by simp))]
    | throw e => simp at h
    | ub => simp at h

theorem tfLoop_total {op : List EType → EType → Bool → Bool → Res (Option R)} {sc : ScopeStack} {igm : Bool} {n : String} :
    ∀ (ts : List EType) (s : St R) (dust : Bool), ts.Nodup →
    (∀ x ∈ flags ts dust, ∃ r, op (s.spc.map fun _ => x.1) x.1 igm x.2 = .ok (some r)) → (∀ t ∈ ts, s.store.content (tfSlot sc n t) = none) →
    ∃ s', tfLoop op sc igm n ts s dust = (s', .ok ()) := by
  intro ts
  induction ts with
  | nil => intro s dust _ _ _; exact ⟨s, rfl⟩
  | cons t ts ih =>
    intro s dust hnd h hf
    rw [List.nodup_cons] at hnd
    obtain ⟨r, hr⟩ := h (t, if t = .noContinuum then false else dust) (by simp [flags])
    obtain ⟨s1, h1⟩ := tfTurn_total (sc := sc) (n := n) hr (hf t (by simp))
    obtain ⟨-, e2, -, r', -, -, e6⟩ := tfTurn_ok h1
    obtain ⟨s', h2⟩ := ih s1 (if t = .noContinuum then false else dust) hnd.2 (by
      intro x hx
      obtain ⟨r2, hr2⟩ := h x (by unfold flags; exact List.mem_cons_of_mem _ hx)
      exact ⟨r2, by rw [e2, List.map_map]; exact hr2⟩) (by
      intro t' ht'
      have hne : tfSlot sc n t' ≠ tfSlot sc n t := fun he => hnd.1 ((tfSlot_inj he).2 ▸ ht')
      rw [e6, if_neg hne]
      exact hf t' (by simp [ht']))
    refine ⟨s', ?_⟩
    unfold tfLoop
    rw [h1]
    exact h2

/-- **C141** A fit of a template that ends without error: every spectrum and every template has the component it had before; each component of the
request was fitted with all the spectra and the template set to it, with the IGM option of the request, and the result is read under the name of the
component in the scope; nothing else changes in the store. -/
theorem C141_solve {op : List EType → EType → Bool → Bool → Res (Option R)} {sc : ScopeStack} {igm dust : Bool} {c : Comp} {s s' : St R} {n : String}
    (h : tfSolve op sc igm dust c s n = (s', .ok ())) :
    s'.spc = s.spc ∧ (∀ m, s'.tpl m = s.tpl m) ∧
    (∀ x ∈ fitsOf dust c, ∃ r, op (s.spc.map fun _ => x.1) x.1 igm x.2 = .ok (some r) ∧ s'.store.getScopedPerTemplate sc n (tfScope x.1) = .ok r) ∧
    ∀ sl, (∀ x ∈ fitsOf dust c, sl ≠ tfSlot sc n x.1) → s'.store.read sl = s.store.read sl := by
  unfold tfSolve at h
  rcases hT : tfLoop op sc igm n c.types s dust with ⟨s1, x⟩
  rw [hT] at h
  cases x with
  | ok u =>
    simp only [Prod.mk.injEq, and_true] at h
    obtain ⟨f1, f2, f3, f4⟩ := tfLoop_ok _ _ _ _ (types_nodup c) hT
    rw [flags_types] at f3
    have hst : s'.store = s1.store := by rw [← h]
    refine ⟨by rw [← h], ?_, ?_, ?_⟩
    · intro m
      rw [← h]
      simp only
      split_ifs with hm
      · rw [hm]
      · exact f1 m hm
    · intro x hx
      obtain ⟨r, g1, -, g3⟩ := f3 x hx
      refine ⟨r, g1, ?_⟩
      have : s'.store.getScopedPerTemplate sc n (tfScope x.1) = s'.store.read (tfSlot sc n x.1) := rfl
      rw [this, read_eq, hst, g3]
    · intro sl hsl
      rw [read_eq, read_eq, hst, f4 sl]
      intro t ht
      rw [← flags_fst c.types dust, flags_types] at ht
      obtain ⟨x, hx, rfl⟩ := List.mem_map.1 ht
      exact hsl x hx
  | throw e => simp at h
  | ub => simp at h

/-- **C141** The fit ends without error when the operator gives a result for each component and the store has no result of that template under these names. -/
theorem C141_solve_total {op : List EType → EType → Bool → Bool → Res (Option R)} {sc : ScopeStack} {igm dust : Bool} {c : Comp} {s : St R} {n : String}
    (h : ∀ x ∈ fitsOf dust c, (∃ r, op (s.spc.map fun _ => x.1) x.1 igm x.2 = .ok (some r)) ∧ s.store.content (tfSlot sc n x.1) = none) :
    ∃ s', tfSolve op sc igm dust c s n = (s', .ok ()) := by
  rw [← flags_types] at h
  obtain ⟨s', h1⟩ := tfLoop_total (sc := sc) (n := n) c.types s dust (types_nodup c) (fun x hx => (h x hx).1) (by
    intro t ht
    rw [← flags_fst c.types dust] at ht
    obtain ⟨x, hx, rfl⟩ := List.mem_map.1 ht
    exact (h x hx).2)
  unfold tfSolve
  rw [h1]
  exact ⟨_, rfl⟩

/-- **C141** The loop over the templates of a catalog: the same for all of them. -/
theorem C141_all {op : String → List EType → EType → Bool → Bool → Res (Option R)} {sc : ScopeStack} {igm dust : Bool} {c : Comp} :
    ∀ (names : List String) (s s' : St R), tfAll op sc igm dust c names s = (s', .ok ()) →
    s'.spc = s.spc ∧ (∀ m, s'.tpl m = s.tpl m) ∧
    (∀ n ∈ names, ∀ x ∈ fitsOf dust c, ∃ r, op n (s.spc.map fun _ => x.1) x.1 igm x.2 = .ok (some r) ∧ s'.store.getScopedPerTemplate sc n (tfScope x.1) = .ok r) ∧
    ∀ sl, (∀ n ∈ names, ∀ x ∈ fitsOf dust c, sl ≠ tfSlot sc n x.1) → s'.store.read sl = s.store.read sl := by
  intro names
  induction names with
  | nil =>
    intro s s' h
    unfold tfAll at h
    simp only [Prod.mk.injEq, and_true] at h
    subst h
    exact ⟨rfl, fun _ => rfl, by simp, fun _ _ => rfl⟩
  | cons n ns ih =>
    intro s s' h
    unfold tfAll at h
    rcases hT : tfSolve (op n) sc igm dust c s n with ⟨s1, x⟩
    rw [hT] at h
    cases x with
    | ok u =>
      simp only at h
      obtain ⟨e1, e2, e3, e4⟩ := C141_solve hT
      obtain ⟨f1, f2, f3, f4⟩ := ih s1 s' h
      refine ⟨f1.trans e1, fun m => (f2 m).trans (e2 m), ?_, ?_⟩
      · intro m hm x hx
        by_cases hmn : m ∈ ns
        · obtain ⟨r, g1, g2⟩ := f3 m hmn x hx
          rw [e1] at g1
          exact ⟨r, g1, g2⟩
        · have hm' : m = n := by rcases List.mem_cons.1 hm with h | h; exact h; exact absurd h hmn
          subst hm'
          obtain ⟨r, g1, g2⟩ := e3 x hx
          refine ⟨r, g1, ?_⟩
          have : ∀ q : St R, q.store.getScopedPerTemplate sc m (tfScope x.1) = q.store.read (tfSlot sc m x.1) := fun q => rfl
          rw [this] at g2 ⊢
          rw [f4, g2]
          intro k hk y hy he
          exact hmn ((tfSlot_inj he).1 ▸ hk)
      · intro sl hsl
        rw [f4 sl fun k hk => hsl k (by simp [hk]), e4 sl (hsl n (by simp))]
    | throw e => simp at h
    | ub => simp at h

/-- **C141** The whole part of the method that fills the store: the component of the request decides which fits are made and which results are combined;
an empty catalog and an unknown component are refused and change nothing. -/
theorem C141_run_partial {op : String → List EType → EType → Bool → Bool → Res (Option R)} {sc : ScopeStack} {igm dust : Bool} {comp scope : String} {names : List String} {s s' : St R}
    (h : tfRun op sc igm dust comp names s = (s', .ok scope)) :
    names ≠ [] ∧ ∃ c t, tfComponent comp = .ok (c, scope) ∧ t ∈ (fitsOf dust c).map Prod.fst ∧ scope = tfScope t ∧ s'.spc = s.spc ∧ (∀ m, s'.tpl m = s.tpl m) ∧
      ∀ n ∈ names, ∀ x ∈ fitsOf dust c, ∃ r, op n (s.spc.map fun _ => x.1) x.1 igm x.2 = .ok (some r) ∧ s'.store.getScopedPerTemplate sc n (tfScope x.1) = .ok r := by
  unfold tfRun at h
  rcases hc : tfComponent comp with ⟨c, sc1⟩ | e | _
  · rw [hc] at h
    simp only at h
    by_cases hn : names = []
    · rw [if_pos hn] at h; simp at h
    · rw [if_neg hn] at h
      rcases hT : tfAll op sc igm dust c names s with ⟨s1, x⟩
      rw [hT] at h
      cases x with
      | ok u =>
        simp only [Prod.mk.injEq, Res.ok.injEq] at h
        obtain ⟨rfl, rfl⟩ := h
        obtain ⟨f1, f2, f3, -⟩ := C141_all names s s1 hT
        refine ⟨hn, c, ?_⟩
        have : ∃ t, t ∈ (fitsOf dust c).map Prod.fst ∧ sc1 = tfScope t := by
          unfold tfComponent at hc
          split_ifs at hc <;> simp only [Res.ok.injEq, Prod.mk.injEq] at hc <;> obtain ⟨rfl, rfl⟩ := hc
          · exact ⟨.raw, by simp [fitsOf], rfl⟩
          · exact ⟨.noContinuum, by simp [fitsOf], rfl⟩
          · exact ⟨.continuumOnly, by simp [fitsOf], rfl⟩
          · exact ⟨.raw, by simp [fitsOf], rfl⟩
        obtain ⟨t, ht, hs⟩ := this
        exact ⟨t, rfl, ht, hs, f1, f2, f3⟩
      | throw e => simp at h
      | ub => simp at h
  · rw [hc] at h; simp at h
  · rw [hc] at h; simp at h

theorem C141_refused {op : String → List EType → EType → Bool → Bool → Res (Option R)} {sc : ScopeStack} {igm dust : Bool} {comp : String} {names : List String} {s : St R} :
    ((∀ e, tfComponent comp = .throw e → tfRun op sc igm dust comp names s = (s, .throw e)) ∧
      ∀ c, tfComponent comp = .ok c → tfRun op sc igm dust comp [] s = (s, .throw .BAD_TEMPLATECATALOG)) := by
  constructor
  · intro e h; unfold tfRun; rw [h]
  · rintro ⟨c, sc1⟩ h; unfold tfRun; rw [h]; simp

/-- **C141**, negation of "the components are put back whatever happens": when the operator throws on the (only) component asked for, all the spectra and
the template stay on that component. -/
theorem C141_not_restored {op : List EType → EType → Bool → Bool → Res (Option R)} {sc : ScopeStack} {igm dust : Bool} {t : EType} {s : St R} {n : String} {e : Err}
    (h : ∀ a b c d, op a b c d = .throw e) :
    ∃ s', tfSolve op sc igm dust (.one t) s n = (s', .throw e) ∧ s'.spc = s.spc.map (fun _ => t) ∧ s'.tpl n = t := by
  refine ⟨s.setTypes [n] t, ?_, rfl, by simp [St.setTypes]⟩
  unfold tfSolve
  have : tfLoop op sc igm n (Comp.one t).types s dust = (s.setTypes [n] t, .throw e) := by
    show tfLoop op sc igm n [t] s dust = _
    unfold tfLoop tfTurn
    simp only [h]
  rw [this]

theorem C141_not_restored_counterexample : ∃ (s : St Nat) (s' : St Nat) (e : Err),
    tfSolve (fun _ _ _ _ => .throw .OVERLAPFRACTION_NOTACCEPTABLE) (.ofNames []) false false (.one .noContinuum) s "t" = (s', .throw e) ∧ s'.spc ≠ s.spc := by
  obtain ⟨s', h1, h2, -⟩ := C141_not_restored (R := Nat) (op := fun _ _ _ _ => .throw .OVERLAPFRACTION_NOTACCEPTABLE) (sc := .ofNames []) (igm := false) (dust := false)
    (t := .noContinuum) (s := ⟨[.raw], fun _ => .raw, {}⟩) (n := "t") (e := .OVERLAPFRACTION_NOTACCEPTABLE) (fun _ _ _ _ => rfl)
  exact ⟨_, s', _, h1, by rw [h2]; simp⟩

/-- **C141**, negation of "dust is fitted on every component that has a continuum when it is asked for": with all the components, the continuum is fitted
without dust, while it is fitted with dust when it is asked for alone. -/
theorem C141_dust_counterexample : ∃ (op : List EType → EType → Bool → Bool → Res (Option Bool)) (s s1 s2 : St Bool),
    tfSolve op (.ofNames []) false true .all s "t" = (s1, .ok ()) ∧ tfSolve op (.ofNames []) false true (.one .continuumOnly) s "t" = (s2, .ok ()) ∧
    s1.store.getScopedPerTemplate (.ofNames []) "t" "templatefitting_continuum" = .ok false ∧
    s2.store.getScopedPerTemplate (.ofNames []) "t" "templatefitting_continuum" = .ok true := by
  have tot : ∀ c : Comp, ∃ s', tfSolve (fun _ _ _ d => .ok (some d)) (.ofNames []) false true c (⟨[.raw], fun _ => .raw, {}⟩ : St Bool) "t" = (s', .ok ()) :=
    fun c => C141_solve_total (fun x hx => ⟨⟨_, rfl⟩, rfl⟩)
  obtain ⟨s1, h1⟩ := tot .all
  obtain ⟨s2, h2⟩ := tot (.one .continuumOnly)
  refine ⟨fun _ _ _ d => .ok (some d), _, s1, s2, h1, h2, ?_, ?_⟩
  · obtain ⟨r, g1, g2⟩ := (C141_solve h1).2.2.1 (.continuumOnly, false) (by simp [fitsOf])
    cases g1; exact g2
  · obtain ⟨r, g1, g2⟩ := (C141_solve h2).2.2.1 (.continuumOnly, true) (by simp [fitsOf])
    cases g1; exact g2

/-- The hypotheses of `C141_solve_total` hold for an empty store and an operator that gives a result; so those of `C141_solve` are met. -/
example : ∃ s', tfSolve (fun _ t _ _ => .ok (some (tfScope t))) (.ofNames ["galaxy"]) true true .all ⟨[.raw, .raw], fun _ => .raw, {}⟩ "t" = (s', .ok ()) :=
  C141_solve_total fun x hx => ⟨⟨_, rfl⟩, rfl⟩

/-! ## C142: names of the components -/

/-- **C142** The names of components that template fitting accepts. -/
theorem C142_template_fitting_partial (s : String) : (∃ r, tfComponent s = .ok r) ↔ s ∈ ["raw", "nocontinuum", "continuum", "all"] := by
  unfold tfComponent
  split_ifs <;> simp_all

/-- **C142** The names of components that template combination accepts. -/
theorem C142_template_combination (s : String) : (∃ r, tcComponent s = .ok r) ↔ s ∈ ["raw", "noContinuum", "continuum", "all"] := by
  unfold tcComponent
  split_ifs <;> simp_all

/-- The values of `templateFittingSolve.spectrum.component` that the parameter schema allows
(pylibamazed/auxdir/pylibamazed/jsonschema-v2/template_fitting_solve.json:80-84). -/
def schemaComponents : List String := ["raw", "noContinuum", "continuum", "all"]

/-- **C142**, negation of "a value allowed by the schema is accepted by the solver": the component without continuum, as spelled in the schema, is
refused by template fitting as an internal error. -/
theorem C142_schema_counterexample : "noContinuum" ∈ schemaComponents ∧ tfComponent "noContinuum" = .throw .INTERNAL_ERROR ∧
    (∃ r, tcComponent "noContinuum" = .ok r) ∧ ∀ s ∈ schemaComponents, s ≠ "noContinuum" → ∃ r, tfComponent s = .ok r := by
  refine ⟨by simp [schemaComponents], by decide, ⟨_, rfl⟩, ?_⟩
  intro s hs hn
  rw [C142_template_fitting_partial]
  simp [schemaComponents] at hs
  rcases hs with rfl | rfl | rfl | rfl <;> simp_all

/-! ## Template combination -/

theorem tcTurn_ok {op : List EType → List EType → Bool → Bool → Res (Option R)} {sc : ScopeStack} {igm : Bool} {names : List String} {s s' : St R} {dust d : Bool} {t : EType}
    (h : tcTurn op sc igm names s dust t = ((s', d), .ok true)) :
    d = (if t = .noContinuum then false else dust) ∧ s'.spc = s.spc.map (fun _ => t) ∧ (∀ m, s'.tpl m = if m ∈ names then t else s.tpl m) ∧
    ∃ r, op (s.spc.map fun _ => t) (names.map fun _ => t) igm d = .ok (some r) ∧ s.store.content (tcSlot sc t) = none ∧
      ∀ sl, s'.store.content sl = if sl = tcSlot sc t then some r else s.store.content sl := by
  unfold tcTurn at h
  simp only at h
  have ht : names.map (s.setTypes names t).tpl = names.map fun _ => t := by
    apply List.map_congr_left
    intro m hm
    simp [St.setTypes, hm]
  rw [ht] at h
  generalize hd : (if t = .noContinuum then false else dust) = d0 at h
  cases ho : op (s.setTypes names t).spc (names.map fun _ => t) igm d0 with
  | ok o =>
    rw [ho] at h
    cases o with
    | none => simp at h
    | some r =>
      obtain ⟨g1, g2⟩ := global_step s.store sc t r
      have hst : (s.setTypes names t).store = s.store := rfl
      rw [hst] at h
      simp only at h
      rcases hS : s.store.storeScopedGlobal sc (tcScope t) r with ⟨st, x⟩
      rw [hS] at h g1 g2
      cases x with
      | ok u =>
        simp only [Prod.mk.injEq, and_true] at h g1 g2
        obtain ⟨h1, h2⟩ := h
        have hnone : s.store.content (tcSlot sc t) = none := by
          cases hc : s.store.content (tcSlot sc t) with
          | none => rfl
          | some x => rw [hc] at g1; simp at g1
        subst h2
        refine ⟨rfl, by rw [← h1]; rfl, ?_, r, ho, hnone, ?_⟩
        · intro m; rw [← h1]; simp [St.setTypes]
        · intro sl; rw [← h1]; simp only; rw [g2, hnone]
      | throw e => simp at h
      | ub => simp at h
  | throw e => rw [ho] at h; simp at h
  | ub => rw [ho] at h; simp at h

theorem tcTurn_total {op : List EType → List EType → Bool → Bool → Res (Option R)} {sc : ScopeStack} {igm : Bool} {names : List String} {s : St R} {dust : Bool} {t : EType} {r : R}
    (h : op (s.spc.map fun _ => t) (names.map fun _ => t) igm (if t = .noContinuum then false else dust) = .ok (some r)) (hf : s.store.content (tcSlot sc t) = none) :
    ∃ s', tcTurn op sc igm names s dust t = ((s', if t = .noContinuum then false else dust), .ok true) := by
  unfold tcTurn
  simp only
  have ht : names.map (s.setTypes names t).tpl = names.map fun _ => t := by
    apply List.map_congr_left
    intro m hm
    simp [St.setTypes, hm]
  have hs : (s.setTypes names t).spc = s.spc.map fun _ => t := rfl
  have hst : (s.setTypes names t).store = s.store := rfl
  rw [ht, hs, h, hst]
  obtain ⟨g1, -⟩ := global_step s.store sc t r
  rw [hf] at g1
  rcases hS : s.store.storeScopedGlobal sc (tcScope t) r with ⟨st, x⟩
  rw [hS] at g1
  simp only [Option.isNone_none, if_true] at g1
  subst g1
  simp only [hS]
  exact ⟨_, rfl⟩

theorem tcLoop_ok {op : List EType → List EType → Bool → Bool → Res (Option R)} {sc : ScopeStack} {igm : Bool} {names : List String} :
    ∀ (ts : List EType) (s s' : St R) (dust : Bool), ts.Nodup → tcLoop op sc igm names ts s dust = (s', .ok true) →
    (∀ m, m ∉ names → s'.tpl m = s.tpl m) ∧
    (∀ x ∈ flags ts dust, ∃ r, op (s.spc.map fun _ => x.1) (names.map fun _ => x.1) igm x.2 = .ok (some r) ∧ s'.store.content (tcSlot sc x.1) = some r) ∧
    ∀ sl, (∀ t ∈ ts, sl ≠ tcSlot sc t) → s'.store.content sl = s.store.content sl := by
  intro ts
  induction ts with
  | nil =>
    intro s s' dust _ h
    unfold tcLoop at h
    simp only [Prod.mk.injEq, and_true] at h
    subst h
    exact ⟨fun _ _ => rfl, by simp [flags], fun _ _ => rfl⟩
  | cons t ts ih =>
    intro s s' dust hnd h
    rw [List.nodup_cons] at hnd
    unfold tcLoop at h
    rcases hT : tcTurn op sc igm names s dust t with ⟨⟨s1, d⟩, x⟩
    rw [hT] at h
    cases x with
    | ok u =>
      cases u with
      | false => simp at h
      | true =>
      obtain ⟨e1, e2, e3, r, e4, e5, e6⟩ := tcTurn_ok hT
      simp only at h
      obtain ⟨f1, f3, f4⟩ := ih s1 s' d hnd.2 h
      refine ⟨?_, ?_, ?_⟩
      · intro m hm; rw [f1 m hm, e3, if_neg hm]
      · intro x hx
        unfold flags at hx
        rcases List.mem_cons.1 hx with rfl | hx
        · rw [← e1]
          refine ⟨r, e4, ?_⟩
          simp only
          rw [f4, e6, if_pos rfl]
          intro t' ht' he
          exact hnd.1 (tcSlot_inj he ▸ ht')
        · rw [← e1] at hx
          obtain ⟨r', g1, g3⟩ := f3 x hx
          rw [e2, List.map_map] at g1
          exact ⟨r', g1, g3⟩
      · intro sl hsl
        rw [f4 sl fun t' ht' => hsl t' (by simp [ht']), e6, if_neg (hsl t (by simp))]
    | throw e => simp at h
    | ub => simp at h

theorem tcLoop_total {op : List EType → List EType → Bool → Bool → Res (Option R)} {sc : ScopeStack} {igm : Bool} {names : List String} :
    ∀ (ts : List EType) (s : St R) (dust : Bool), ts.Nodup →
    (∀ x ∈ flags ts dust, ∃ r, op (s.spc.map fun _ => x.1) (names.map fun _ => x.1) igm x.2 = .ok (some r)) → (∀ t ∈ ts, s.store.content (tcSlot sc t) = none) →
    ∃ s', tcLoop op sc igm names ts s dust = (s', .ok true) := by
  intro ts
  induction ts with
  | nil => intro s dust _ _ _; exact ⟨s, rfl⟩
  | cons t ts ih =>
    intro s dust hnd h hf
    rw [List.nodup_cons] at hnd
    obtain ⟨r, hr⟩ := h (t, if t = .noContinuum then false else dust) (by simp [flags])
    obtain ⟨s1, h1⟩ := tcTurn_total (sc := sc) hr (hf t (by simp))
    obtain ⟨-, e2, -, r', -, -, e6⟩ := tcTurn_ok h1
    obtain ⟨s', h2⟩ := ih s1 (if t = .noContinuum then false else dust) hnd.2 (by
      intro x hx
      obtain ⟨r2, hr2⟩ := h x (by unfold flags; exact List.mem_cons_of_mem _ hx)
      exact ⟨r2, by rw [e2, List.map_map]; exact hr2⟩) (by
      intro t' ht'
      have hne : tcSlot sc t' ≠ tcSlot sc t := fun he => hnd.1 (tcSlot_inj he ▸ ht')
      rw [e6, if_neg hne]
      exact hf t' (by simp [ht']))
    refine ⟨s', ?_⟩
    unfold tcLoop
    rw [h1]
    exact h2

variable {K : Type} [Field K] [LinearOrder K] [IsStrictOrderedRing K]

/-- **C145** The combination accepts exactly the non-empty lists of templates which all have the number of samples of the first one, each wavelength
within 1e-8 of the one of the first. -/
theorem C145_check (axes : List (List K)) :
    checkTemplates axes = (if axes = [] then .throw .BAD_TEMPLATECATALOG else
      open Classical in
      if ∀ a ∈ axes, a.length = (axes.headD []).length ∧ ∀ (i : Nat) (x y : K), (axes.headD [])[i]? = some x → a[i]? = some y → |x - y| ≤ 1 / 100000000 then .ok ()
      else .throw .INTERNAL_ERROR) := by
  cases axes with
  | nil => rfl
  | cons ref rest =>
    rw [if_neg (by simp), List.headD_cons]
    show axesCheck ref (ref :: rest) = _
    generalize (ref :: rest) = l
    classical
    have one : ∀ a : List K, axisCheck ref a = (if a.length = ref.length ∧ ∀ (i : Nat) (x y : K), ref[i]? = some x → a[i]? = some y → |x - y| ≤ 1 / 100000000 then .ok () else .throw .INTERNAL_ERROR) := by
      intro a
      unfold axisCheck
      by_cases hl : ref.length ≠ a.length
      · rw [if_pos hl, if_neg (fun h => hl h.1.symm)]
      · rw [if_neg hl]
        rw [not_not] at hl
        by_cases hb : ((ref.zip a).any fun p => decide ((1 : K) / 100000000 < |p.1 - p.2|)) = true
        · rw [if_pos hb, if_neg]
          rintro ⟨-, h⟩
          obtain ⟨p, hp, hq⟩ := List.any_eq_true.1 hb
          obtain ⟨i, hi, rfl⟩ := List.getElem_of_mem hp
          rw [List.length_zip] at hi
          rw [List.getElem_zip] at hq
          have := h i ref[i] a[i] (List.getElem?_eq_getElem (by omega)) (List.getElem?_eq_getElem (by omega))
          exact absurd (of_decide_eq_true hq) (not_lt.2 this)
        · rw [if_neg hb, if_pos]
          refine ⟨hl.symm, ?_⟩
          intro i x y hx hy
          by_contra hlt
          apply hb
          rw [List.any_eq_true]
          refine ⟨(x, y), ?_, decide_eq_true (not_le.1 hlt)⟩
          obtain ⟨h1, rfl⟩ := List.getElem?_eq_some_iff.1 hx
          obtain ⟨h2, rfl⟩ := List.getElem?_eq_some_iff.1 hy
          have h3 : i < (ref.zip a).length := by rw [List.length_zip]; omega
          have := List.getElem_mem h3
          rwa [List.getElem_zip] at this
    induction l with
    | nil => simp [axesCheck]
    | cons a as ih =>
      unfold axesCheck
      rw [one a, ih]
      by_cases h1 : a.length = ref.length ∧ ∀ (i : Nat) (x y : K), ref[i]? = some x → a[i]? = some y → |x - y| ≤ 1 / 100000000
      · rw [if_pos h1, Res.bind_ok]
        congr 1
        rw [List.forall_mem_cons, and_iff_right h1]
      · rw [if_neg h1, Res.bind_throw, if_neg]
        exact fun h => h1 (h a (by simp))

/-- The test is with the first template only: two templates can both be accepted and be further than 1e-8 from each other. -/
theorem C145_not_pairwise_counterexample : checkTemplates [[(1 : ℚ)], [1 + 1 / 100000000], [1 - 1 / 100000000]] = .ok () ∧
    ¬ |(1 + 1 / 100000000 : ℚ) - (1 - 1 / 100000000)| ≤ 1 / 100000000 := by
  constructor
  · decide +kernel
  · norm_num [abs_le]

example : checkTemplates [[(1 : ℚ), 2], [1, 2, 3]] = .throw .INTERNAL_ERROR ∧ checkTemplates ([] : List (List ℚ)) = .throw .BAD_TEMPLATECATALOG ∧
    checkTemplates [[(1 : ℚ), 2], [1, 2 + 1 / 1000000]] = .throw .INTERNAL_ERROR ∧ checkTemplates [[(1 : ℚ), 2], [1, 2]] = .ok () := by decide +kernel

/-- **C141** The same for the template combination, which stores one result per component. It ends with `true` only when the templates were accepted. -/
theorem C141_combination {op : List EType → List EType → Bool → Bool → Res (Option R)} {sc : ScopeStack} {igm dust : Bool} {c : Comp} {axes : List (List K)} {names : List String}
    {s s' : St R} (h : tcSolve op sc igm dust c axes names s = (s', .ok true)) :
    checkTemplates axes = .ok () ∧ s'.spc = s.spc ∧ (∀ m, s'.tpl m = s.tpl m) ∧
    (∀ x ∈ fitsOf dust c, ∃ r, op (s.spc.map fun _ => x.1) (names.map fun _ => x.1) igm x.2 = .ok (some r) ∧ s'.store.getScopedGlobal sc (tcScope x.1) = .ok r) ∧
    ∀ sl, (∀ x ∈ fitsOf dust c, sl ≠ tcSlot sc x.1) → s'.store.read sl = s.store.read sl := by
  unfold tcSolve at h
  rcases hC : checkTemplates axes with _ | e | _
  · rw [hC] at h
    simp only at h
    rcases hT : tcLoop op sc igm names c.types s dust with ⟨s1, x⟩
    rw [hT] at h
    cases x with
    | ok u =>
      cases u with
      | false => simp at h
      | true =>
      simp only [Prod.mk.injEq, and_true] at h
      obtain ⟨f1, f3, f4⟩ := tcLoop_ok _ _ _ _ (types_nodup c) hT
      rw [flags_types] at f3
      have hst : s'.store = s1.store := by rw [← h]
      refine ⟨rfl, by rw [← h], ?_, ?_, ?_⟩
      · intro m
        rw [← h]
        simp only
        split_ifs with hm
        · rfl
        · exact f1 m hm
      · intro x hx
        obtain ⟨r, g1, g3⟩ := f3 x hx
        refine ⟨r, g1, ?_⟩
        have : s'.store.getScopedGlobal sc (tcScope x.1) = s'.store.read (tcSlot sc x.1) := rfl
        rw [this, read_eq, hst, g3]
      · intro sl hsl
        rw [read_eq, read_eq, hst, f4 sl]
        intro t ht
        rw [← flags_fst c.types dust, flags_types] at ht
        obtain ⟨x, hx, rfl⟩ := List.mem_map.1 ht
        exact hsl x hx
    | throw e => simp at h
    | ub => simp at h
  · rw [hC] at h; simp at h
  · rw [hC] at h; simp at h

theorem C141_combination_total {op : List EType → List EType → Bool → Bool → Res (Option R)} {sc : ScopeStack} {igm dust : Bool} {c : Comp} {axes : List (List K)} {names : List String}
    {s : St R} (ha : checkTemplates axes = .ok ())
    (h : ∀ x ∈ fitsOf dust c, (∃ r, op (s.spc.map fun _ => x.1) (names.map fun _ => x.1) igm x.2 = .ok (some r)) ∧ s.store.content (tcSlot sc x.1) = none) :
    ∃ s', tcSolve op sc igm dust c axes names s = (s', .ok true) := by
  rw [← flags_types] at h
  obtain ⟨s', h1⟩ := tcLoop_total (sc := sc) (names := names) c.types s dust (types_nodup c) (fun x hx => (h x hx).1) (by
    intro t ht
    rw [← flags_fst c.types dust] at ht
    obtain ⟨x, hx, rfl⟩ := List.mem_map.1 ht
    exact (h x hx).2)
  unfold tcSolve
  rw [ha, h1]
  exact ⟨_, rfl⟩

/-- Templates that are refused change nothing. -/
theorem C141_combination_refused {op : List EType → List EType → Bool → Bool → Res (Option R)} {sc : ScopeStack} {igm dust : Bool} {c : Comp} {axes : List (List K)} {names : List String}
    {s : St R} {e : Err} (h : checkTemplates axes = .throw e) : tcSolve op sc igm dust c axes names s = (s, .throw e) := by
  unfold tcSolve; rw [h]

example : ∃ s', tcSolve (fun _ _ _ d => .ok (some d)) (.ofNames ["galaxy"]) true true .all [[(1 : ℚ), 2], [1, 2]] ["a", "b"] ⟨[.raw], fun _ => .raw, {}⟩ = (s', .ok true) :=
  C141_combination_total (by decide +kernel) fun x hx => ⟨⟨_, rfl⟩, rfl⟩

end TplSolve
end Amazed
