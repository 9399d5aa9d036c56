import Verif.Model.ProcFlow
import Mathlib.Data.List.Basic
import Mathlib.Data.List.Nodup
import Mathlib.Tactic.SplitIfs
import Mathlib.Tactic.Common

/-!
# C198: a failing stage or model never hides or disturbs the others

`run c v w` is the run of one spectrum, `v` being an arbitrary behaviour of the stages (any of them may fail at any call, depending on
everything done before). The final trace lists the stages run, with the error raised by each.
-/

set_option autoImplicit true
set_option linter.unusedVariables false
set_option linter.unusedSimpArgs false
set_option linter.unusedTactic false
set_option linter.unreachableTactic false
set_option linter.unnecessarySeqFocus false
namespace Amazed
namespace ProcFlow

/-! ## Specification -/

/-- Stage `s` of model `m` was run, with outcome `o` (`none`: no exception). -/
def Ran (st : St σ) (m : String) (s : Stg) (o : Option String) : Prop := (⟨s, some m, o⟩ : Ev) ∈ st.trace

/-- The initialisation succeeded. -/
def InitOk (st : St σ) : Prop := (⟨.init, none, none⟩ : Ev) ∈ st.trace

/-- Stage `s` uses what stage `s'` produced. -/
def Needs (s s' : Stg) : Prop :=
  (s = .lineMeas ∧ (s' = .redshift ∨ s' = .lmLoad)) ∨ (s' = .redshift ∧ (s = .reliability ∨ s = .subClassif))

/-- Names of models: distinct, not empty, and not the reserved name. -/
def WF (c : Cfg) : Prop := c.models.Nodup ∧ ∀ m ∈ c.models, m ≠ "" ∧ m ≠ "classification"

/-! ## Scopes and steps -/

theorem lastOf_append (t : ScT) (a b : List (ScT × String)) :
    lastOf t (a ++ b) = match lastOf t b with | some x => some x | none => lastOf t a := by
  induction a with
  | nil => simp only [List.nil_append, lastOf]; cases lastOf t b <;> rfl
  | cons x r ih =>
    obtain ⟨u, w⟩ := x
    simp only [List.cons_append, lastOf, ih]
    cases lastOf t b <;> rfl

theorem scopeModel_in (hm : m ≠ "classification") (n : String) : scopeModel ([(.model, m)] ++ [(.stage, n)]) = some m := by
  simp [scopeModel, lastOf, hm]

theorem step_in (c : Cfg) (v : Env σ) (s : Stg) (t : St σ) (hm : m ≠ "classification") (hs : t.scope = [(.model, m)]) :
    ∃ w' o, step c v s t = (⟨w', t.scope, (match o with | none => t.errors | some e => storeError c e (some m) s t.errors),
      t.trace ++ [⟨s, some m, o⟩]⟩, o.isSome) := by
  unfold step
  dsimp only
  rw [hs, scopeModel_in hm]
  exact ⟨_, _, rfl⟩

/-! ## The stages of one model -/

def SubS (c : Cfg) (m : String) (a : List Ev) : Prop :=
  (tplratioNeeded c m = true ∧ ∃ o, a = [⟨.subClassif, some m, o⟩]) ∨ (tplratioNeeded c m = false ∧ a = [])

def RelS (c : Cfg) (m : String) (a : List Ev) : Prop :=
  ((relEnabled c m = true ∧ m ∈ c.relModels) ∧ ∃ o, a = [⟨.reliability, some m, o⟩]) ∨ (¬(relEnabled c m = true ∧ m ∈ c.relModels) ∧ a = [])

def LmS (c : Cfg) (m : String) (a : List Ev) : Prop :=
  ((truthy (lmMethod c m) = true ∧ m ∉ c.lmCatalog) ∧ ((∃ e, a = [⟨.lmLoad, some m, some e⟩]) ∨
    ∃ o, a = [⟨.lmLoad, some m, none⟩, ⟨.lineMeas, some m, o⟩])) ∨ (¬(truthy (lmMethod c m) = true ∧ m ∉ c.lmCatalog) ∧ a = [])

/-- The stages run for one model, with their outcomes. -/
def Shape (c : Cfg) (m : String) (evs : List Ev) : Prop :=
  (truthy (zMethod c m) = true ∧ ∃ e, evs = [⟨.redshift, some m, some e⟩]) ∨
  (truthy (zMethod c m) = true ∧ ∃ a b d, evs = [⟨.redshift, some m, none⟩] ++ (a ++ (b ++ d)) ∧ SubS c m a ∧ RelS c m b ∧ LmS c m d) ∨
  (truthy (zMethod c m) = false ∧ (truthy (lmMethod c m) = true ∧ m ∈ c.lmCatalog) ∧ ∃ o, evs = [⟨.lineMeas, some m, o⟩]) ∨
  (truthy (zMethod c m) = false ∧ ¬(truthy (lmMethod c m) = true ∧ m ∈ c.lmCatalog) ∧ evs = [])

/-- The errors after the events `evs` of model `m`. -/
def errsOf (c : Cfg) (m : String) : List Ev → (Option String → Stg → Option Code) → Option String → Stg → Option Code
  | [], f => f
  | ev :: r, f => errsOf c m r (match ev.err with | none => f | some e => storeError c e (some m) ev.stg f)

theorem errsOf_append (c : Cfg) (m : String) (a b : List Ev) (f) : errsOf c m (a ++ b) f = errsOf c m b (errsOf c m a f) := by
  induction a generalizing f with
  | nil => rfl
  | cons x r ih => simp only [List.cons_append, errsOf, ih]

/-- `t'` is `t` after the events `evs` of `m`. -/
def After (c : Cfg) (m : String) (t t' : St σ) (evs : List Ev) : Prop :=
  t'.scope = t.scope ∧ t'.errors = errsOf c m evs t.errors ∧ t'.trace = t.trace ++ evs

theorem After.refl (c : Cfg) (m : String) (t : St σ) : After c m t t [] := ⟨rfl, rfl, (List.append_nil _).symm⟩

theorem After.trans {t t' t'' : St σ} (h : After c m t t' a) (h' : After c m t' t'' b) : After c m t t'' (a ++ b) :=
  ⟨h'.1.trans h.1, by rw [h'.2.1, h.2.1, errsOf_append], by rw [h'.2.2, h.2.2, List.append_assoc]⟩

theorem step_after (c : Cfg) (v : Env σ) (s : Stg) (t : St σ) (hm : m ≠ "classification") (hs : t.scope = [(.model, m)]) :
    ∃ o, After c m t (step c v s t).1 [⟨s, some m, o⟩] ∧ (step c v s t).2 = o.isSome := by
  obtain ⟨w', o, h⟩ := step_in c v s t hm hs
  refine ⟨o, ?_, by rw [h]⟩
  rw [h]
  exact ⟨rfl, by cases o <;> rfl, rfl⟩

theorem chainSub_after (c : Cfg) (v : Env σ) (t : St σ) (hm : m ≠ "classification") (hs : t.scope = [(.model, m)]) :
    ∃ a, After c m t (chainSub c v m t) a ∧ SubS c m a := by
  unfold chainSub
  by_cases h : tplratioNeeded c m = true
  · rw [if_pos h]
    obtain ⟨o, h1, -⟩ := step_after c v .subClassif t hm hs
    exact ⟨_, h1, Or.inl ⟨h, o, rfl⟩⟩
  · rw [if_neg h]
    exact ⟨_, After.refl c m t, Or.inr ⟨by simpa using h, rfl⟩⟩

theorem chainRel_after (c : Cfg) (v : Env σ) (t : St σ) (hm : m ≠ "classification") (hs : t.scope = [(.model, m)]) :
    ∃ a, After c m t (chainRel c v m t) a ∧ RelS c m a := by
  unfold chainRel
  by_cases h : relEnabled c m = true ∧ m ∈ c.relModels
  · rw [if_pos (by simpa using h)]
    obtain ⟨o, h1, -⟩ := step_after c v .reliability t hm hs
    exact ⟨_, h1, Or.inl ⟨h, o, rfl⟩⟩
  · rw [if_neg (by simpa using h)]
    exact ⟨_, After.refl c m t, Or.inr ⟨h, rfl⟩⟩

theorem chainLm_after (c : Cfg) (v : Env σ) (t : St σ) (hm : m ≠ "classification") (hs : t.scope = [(.model, m)]) :
    ∃ a, After c m t (chainLm c v m t) a ∧ LmS c m a := by
  unfold chainLm
  by_cases h : truthy (lmMethod c m) = true ∧ m ∉ c.lmCatalog
  · rw [if_pos (by simpa using h)]
    obtain ⟨o, h1, h2⟩ := step_after c v .lmLoad t hm hs
    cases o with
    | some e =>
      rw [if_pos (by rw [h2]; rfl)]
      exact ⟨_, h1, Or.inl ⟨h, Or.inl ⟨e, rfl⟩⟩⟩
    | none =>
      rw [if_neg (by rw [h2]; simp)]
      obtain ⟨o', h3, -⟩ := step_after c v .lineMeas (step c v .lmLoad t).1 hm (h1.1.trans hs)
      exact ⟨_, h1.trans h3, Or.inl ⟨h, Or.inr ⟨o', rfl⟩⟩⟩
  · rw [if_neg (by simpa using h)]
    exact ⟨_, After.refl c m t, Or.inr ⟨h, rfl⟩⟩

theorem chain_after (c : Cfg) (v : Env σ) (t : St σ) (hm : m ≠ "classification") (hs : t.scope = [(.model, m)]) :
    ∃ a, After c m t (chain c v m t) a ∧ Shape c m a := by
  unfold chain
  by_cases hz : truthy (zMethod c m) = true
  · rw [if_pos hz]
    obtain ⟨o, h1, h2⟩ := step_after c v .redshift t hm hs
    cases o with
    | some e =>
      rw [if_pos (by rw [h2]; rfl)]
      exact ⟨_, h1, Or.inl ⟨hz, e, rfl⟩⟩
    | none =>
      rw [if_neg (by rw [h2]; simp)]
      have e1 := h1.1.trans hs
      obtain ⟨a, ha, sa⟩ := chainSub_after c v _ hm e1
      obtain ⟨b, hb, sb⟩ := chainRel_after c v _ hm (ha.1.trans e1)
      obtain ⟨d, hd, sd⟩ := chainLm_after c v _ hm (hb.1.trans (ha.1.trans e1))
      exact ⟨_, h1.trans (ha.trans (hb.trans hd)), Or.inr (Or.inl ⟨hz, a, b, d, rfl, sa, sb, sd⟩)⟩
  · rw [if_neg hz]
    have hz' : truthy (zMethod c m) = false := by simpa using hz
    by_cases h : truthy (lmMethod c m) = true ∧ m ∈ c.lmCatalog
    · rw [if_pos (by simpa using h)]
      obtain ⟨o, h1, -⟩ := step_after c v .lineMeas t hm hs
      exact ⟨_, h1, Or.inr (Or.inr (Or.inl ⟨hz', h, o, rfl⟩))⟩
    · rw [if_neg (by simpa using h)]
      exact ⟨_, After.refl c m t, Or.inr (Or.inr (Or.inr ⟨hz', h, rfl⟩))⟩

theorem processModel_after (c : Cfg) (v : Env σ) (t : St σ) (hm : m ≠ "classification") (hs : t.scope = []) :
    ∃ a, After c m t (processModel c v m t) a ∧ Shape c m a := by
  obtain ⟨a, ha, sa⟩ := chain_after c v { t with scope := t.scope ++ [(.model, m)] } hm (by rw [hs]; rfl)
  refine ⟨a, ⟨?_, ha.2.1, ha.2.2⟩, sa⟩
  show (chain c v m { t with scope := t.scope ++ [(.model, m)] }).scope.dropLast = t.scope
  rw [ha.1, hs]; rfl

/-! ## What the shape says of the errors -/

theorem shape_model (h : Shape c m evs) : ∀ ev ∈ evs, ev.model = some m := by
  rcases h with ⟨-, e, rfl⟩ | ⟨-, a, b, d, rfl, sa, sb, sd⟩ | ⟨-, -, o, rfl⟩ | ⟨-, -, rfl⟩
  · simp
  · rcases sa with ⟨-, o1, rfl⟩ | ⟨-, rfl⟩ <;> rcases sb with ⟨-, o2, rfl⟩ | ⟨-, rfl⟩ <;>
      rcases sd with ⟨-, ⟨e, rfl⟩ | ⟨o3, rfl⟩⟩ | ⟨-, rfl⟩ <;> simp
  · simp
  · simp

theorem storeError_other (c : Cfg) (e : String) (m : String) (s : Stg) (f) (k : Option String) (hk : k ≠ some m) (s' : Stg) :
    storeError c e (some m) s f k s' = f k s' := by
  have hp : ∀ (l : List Stg) (f : Option String → Stg → Option Code), propagate c m s f l k s' = f k s' := by
    intro l
    induction l with
    | nil => intro f; rfl
    | cons x r ih =>
      intro f
      simp only [propagate, ih]
      split
      · simp [setErr, hk]
      · rfl
  simp only [storeError, hp, setErr, hk, false_and, if_false]

theorem errsOf_other (c : Cfg) (m : String) (evs : List Ev) (f) (k : Option String) (hk : k ≠ some m) (s' : Stg) :
    errsOf c m evs f k s' = f k s' := by
  induction evs generalizing f with
  | nil => rfl
  | cons x r ih =>
    rw [errsOf, ih]
    cases x.err with
    | none => rfl
    | some e => exact storeError_other c e m _ f k hk s'

theorem errsOf_cons (c : Cfg) (m : String) (s : Stg) (k : Option String) (o : Option String) (r : List Ev) (f) :
    errsOf c m (⟨s, k, o⟩ :: r) f = errsOf c m r (match o with | none => f | some e => storeError c e (some m) s f) := rfl

/-- What is recorded for a model agrees with the stages run. -/
structure Facts (c : Cfg) (m : String) (evs : List Ev) (er : Stg → Option Code) : Prop where
  fail : ∀ s e, (⟨s, some m, some e⟩ : Ev) ∈ evs → er s = some (.own e)
  ok : ∀ s, (⟨s, some m, none⟩ : Ev) ∈ evs → er s = none
  own : ∀ s e, er s = some (.own e) → (⟨s, some m, some e⟩ : Ev) ∈ evs
  prev : ∀ s s', er s = some (.previous s') → (∃ e, (⟨s', some m, some e⟩ : Ev) ∈ evs) ∧ ∀ o, (⟨s, some m, o⟩ : Ev) ∉ evs
  once : (evs.map (·.stg)).Nodup

theorem store_plain (hs : deps s = []) (c : Cfg) (e m) (f : Option String → Stg → Option Code) (s') :
    storeError c e (some m) s f (some m) s' = if s' = s then some (.own e) else f (some m) s' := by
  simp [storeError, hs, propagate, setErr]

theorem store_redshift (c : Cfg) (e m) (f : Option String → Stg → Option Code) (s') :
    storeError c e (some m) .redshift f (some m) s' = if s' = .redshift then some (.own e) else
      if s' ∈ deps .redshift ∧ stageEnabled c m s' = true then some (.previous .redshift) else f (some m) s' := by
  cases s' <;> simp [storeError, deps, propagate, setErr] <;>
    cases stageEnabled c m .lineMeas <;> cases stageEnabled c m .reliability <;> cases stageEnabled c m .subClassif <;> simp [setErr]

theorem store_lmLoad (c : Cfg) (e m) (f : Option String → Stg → Option Code) (s') :
    storeError c e (some m) .lmLoad f (some m) s' = if s' = .lmLoad then some (.own e) else
      if s' = .lineMeas ∧ stageEnabled c m .lineMeas = true then some (.previous .lmLoad) else f (some m) s' := by
  cases s' <;> simp [storeError, deps, propagate, setErr] <;>
    cases stageEnabled c m .lineMeas <;> simp [setErr]

/-- The error recorded at a stage, from the outcomes. -/
theorem shape_facts (h : Shape c m evs) (f) (h0 : ∀ s, f (some m) s = none) : Facts c m evs (errsOf c m evs f (some m)) := by
  rcases h with ⟨-, e, rfl⟩ | ⟨-, a, b, d, rfl, sa, sb, sd⟩ | ⟨-, -, o, rfl⟩ | ⟨-, -, rfl⟩
  · constructor <;> try simp only [errsOf, store_redshift, h0]
    · intro s e' he
      simp at he; simp [he.1, he.2]
    · simp
    · intro s e' he
      split_ifs at he with h1 h2 <;> simp_all
    · intro s s' he
      split_ifs at he with h1 h2 <;> simp_all
    · simp
  · rcases sa with ⟨-, o1, rfl⟩ | ⟨-, rfl⟩ <;> rcases sb with ⟨-, o2, rfl⟩ | ⟨-, rfl⟩ <;>
      rcases sd with ⟨-, ⟨e, rfl⟩ | ⟨o3, rfl⟩⟩ | ⟨-, rfl⟩ <;>
      (try cases o1) <;> (try cases o2) <;> (try cases o3) <;>
      constructor <;> (try simp only [List.cons_append, List.nil_append, errsOf, store_lmLoad, store_plain (show deps .subClassif = [] from rfl),
        store_plain (show deps .reliability = [] from rfl), store_plain (show deps .lineMeas = [] from rfl), h0]) <;>
      first
      | (intro s e' he; cases s <;> simp at he ⊢ <;> simp [he]; done)
      | (intro s he; cases s <;> simp at he ⊢ <;> done)
      | (intro s e' he; cases s <;> simp at he ⊢ <;> simp [← he]; done)
      | (intro s e' he; cases s <;> simp at he ⊢ <;> (obtain ⟨-, rfl⟩ := he; simp; done))
      | simp
  · cases o <;> constructor <;> (try simp only [errsOf, store_plain (show deps .lineMeas = [] from rfl), h0]) <;>
      first
      | (intro s e' he; cases s <;> simp at he ⊢ <;> simp [he]; done)
      | (intro s he; cases s <;> simp at he ⊢ <;> done)
      | (intro s e' he; cases s <;> simp at he ⊢ <;> simp [← he]; done)
      | simp
  · constructor <;> simp [errsOf, h0]

/-- The parameters of model `m` ask only for stages that `process_spectrum_model` can reach: reliability comes with a redshift solver
and a network, line measurement is chained to the redshift solver or read from a catalogue, not both and not neither. -/
def Reachable (c : Cfg) (m : String) : Prop :=
  (relEnabled c m = true → (zMethod c m).isSome = true ∧ m ∈ c.relModels) ∧
  ((lmMethod c m).isSome = true → lmMethod c m ≠ some "" ∧ ((zMethod c m).isSome = true ↔ m ∉ c.lmCatalog))

theorem zMethod_truthy (c : Cfg) (m : String) : truthy (zMethod c m) = (zMethod c m).isSome := by
  unfold zMethod
  split_ifs with h
  · rfl
  · cases hh : (c.sec m).zMethod with
    | none => rfl
    | some x =>
      have : x ≠ "" := fun h' => h (by rw [hh, h'])
      simp [truthy, this]

theorem lmMethod_truthy (h : lmMethod c m ≠ some "") : truthy (lmMethod c m) = (lmMethod c m).isSome := by
  cases hh : lmMethod c m with
  | none => rfl
  | some x =>
    have : x ≠ "" := fun h' => h (by rw [hh, h'])
    simp [truthy, this]

theorem shape_account (h : Shape c m evs) (f) (h0 : ∀ s, f (some m) s = none) (hr : Reachable c m) (s : Stg) (hs : s ≠ .lmLoad)
    (he : stageEnabled c m s = true) :
    (∃ o, (⟨s, some m, o⟩ : Ev) ∈ evs) ∨ ∃ s', errsOf c m evs f (some m) s = some (.previous s') := by
  have hz := zMethod_truthy c m
  rcases h with ⟨z, e, rfl⟩ | ⟨z, a, b, d, rfl, sa, sb, sd⟩ | ⟨z, ⟨l, lc⟩, o, rfl⟩ | ⟨z, l, rfl⟩
  · by_cases h1 : s = .redshift
    · subst h1; exact Or.inl ⟨some e, by simp⟩
    · refine Or.inr ⟨.redshift, ?_⟩
      simp only [errsOf, store_redshift, h0, if_neg h1]
      have hd : s ∈ deps .redshift := by cases s <;> simp_all [deps, stageEnabled]
      rw [if_pos ⟨hd, he⟩]
  · cases s with
    | redshift => exact Or.inl ⟨none, by simp⟩
    | subClassif =>
      rcases sa with ⟨-, o, rfl⟩ | ⟨t, -⟩
      · exact Or.inl ⟨o, by simp⟩
      · simp [stageEnabled, t] at he
    | reliability =>
      rcases sb with ⟨-, o, rfl⟩ | ⟨t, -⟩
      · exact Or.inl ⟨o, by simp⟩
      · exact absurd ⟨he, (hr.1 he).2⟩ t
    | lineMeas =>
      have hl := hr.2 he
      have ht := lmMethod_truthy hl.1
      rcases sd with ⟨-, ⟨e, rfl⟩ | ⟨o, rfl⟩⟩ | ⟨t, -⟩
      · refine Or.inr ⟨.lmLoad, ?_⟩
        simp only [errsOf_append, errsOf_cons, errsOf, store_lmLoad]
        rw [if_neg (by simp), if_pos ⟨trivial, he⟩]
      · exact Or.inl ⟨o, by simp⟩
      · exact absurd ⟨ht.trans he, hl.2.1 (hz ▸ z)⟩ t
    | lmLoad => exact absurd rfl hs
    | init => simp [stageEnabled] at he
    | classification => simp [stageEnabled] at he
    | loadStore => simp [stageEnabled] at he
  · rw [hz] at z
    cases s with
    | redshift => simp [stageEnabled, z] at he
    | subClassif =>
      exfalso
      simp only [stageEnabled, tplratioNeeded] at he
      split_ifs at he with h1
      rw [h1] at z; cases z
    | reliability => have := (hr.1 he).1; rw [z] at this; cases this
    | lineMeas => exact Or.inl ⟨o, by simp⟩
    | lmLoad => exact absurd rfl hs
    | init => simp [stageEnabled] at he
    | classification => simp [stageEnabled] at he
    | loadStore => simp [stageEnabled] at he
  · rw [hz] at z
    cases s with
    | redshift => simp [stageEnabled, z] at he
    | subClassif =>
      exfalso
      simp only [stageEnabled, tplratioNeeded] at he
      split_ifs at he with h1
      rw [h1] at z; cases z
    | reliability => have := (hr.1 he).1; rw [z] at this; cases this
    | lineMeas =>
      exfalso
      have hl := hr.2 he
      have ht := lmMethod_truthy hl.1
      apply l
      refine ⟨ht.trans he, Classical.byContradiction fun hc => ?_⟩
      have := hl.2.2 hc
      rw [z] at this; cases this
    | lmLoad => exact absurd rfl hs
    | init => simp [stageEnabled] at he
    | classification => simp [stageEnabled] at he
    | loadStore => simp [stageEnabled] at he

/-- The stages run for a model are determined by its parameters and by the outcomes of its own stages. -/
theorem shape_det (h1 : Shape c m e1) (h2 : Shape c m e2)
    (ha : ∀ s o1 o2, (⟨s, some m, o1⟩ : Ev) ∈ e1 → (⟨s, some m, o2⟩ : Ev) ∈ e2 → o1 = o2) : e1 = e2 := by
  rcases h1 with ⟨z, e, rfl⟩ | ⟨z, a, b, d, rfl, sa, sb, sd⟩ | ⟨z, l, o, rfl⟩ | ⟨z, l, rfl⟩ <;>
    rcases h2 with ⟨z', e', rfl⟩ | ⟨z', a', b', d', rfl, sa', sb', sd'⟩ | ⟨z', l', o', rfl⟩ | ⟨z', l', rfl⟩ <;>
    first
    | (rw [z] at z'; cases z'; done)
    | (exact absurd l l')
    | (exact absurd l' l)
    | rfl
    | skip
  · rw [ha .redshift (some e) (some e') (by simp) (by simp)]
  · have := ha .redshift (some e) none (by simp) (by simp); cases this
  · have := ha .redshift none (some e') (by simp) (by simp); cases this
  · have ea : a = a' := by
      rcases sa with ⟨t, o, rfl⟩ | ⟨t, rfl⟩ <;> rcases sa' with ⟨t', o', rfl⟩ | ⟨t', rfl⟩
      · rw [ha .subClassif o o' (by simp) (by simp)]
      · rw [t] at t'; cases t'
      · rw [t] at t'; cases t'
      · rfl
    have eb : b = b' := by
      rcases sb with ⟨t, o, rfl⟩ | ⟨t, rfl⟩ <;> rcases sb' with ⟨t', o', rfl⟩ | ⟨t', rfl⟩
      · rw [ha .reliability o o' (by simp) (by simp)]
      · exact absurd t t'
      · exact absurd t' t
      · rfl
    have ed : d = d' := by
      rcases sd with ⟨t, ⟨e, rfl⟩ | ⟨o, rfl⟩⟩ | ⟨t, rfl⟩ <;> rcases sd' with ⟨t', ⟨e', rfl⟩ | ⟨o', rfl⟩⟩ | ⟨t', rfl⟩
      · rw [ha .lmLoad (some e) (some e') (by simp) (by simp)]
      · have := ha .lmLoad (some e) none (by simp) (by simp); cases this
      · exact absurd t t'
      · have := ha .lmLoad none (some e') (by simp) (by simp); cases this
      · rw [ha .lineMeas o o' (by simp) (by simp)]
      · exact absurd t t'
      · exact absurd t' t
      · exact absurd t' t
      · rfl
    rw [ea, eb, ed]
  · rw [ha .lineMeas o o' (by simp) (by simp)]

/-! ## All the models -/

theorem setErr_congr (f g : Option String → Stg → Option Code) (m : String) (h : f (some m) = g (some m)) (s : Stg) (e : Code) :
    setErr f (some m) s e (some m) = setErr g (some m) s e (some m) := by
  funext s'; simp only [setErr]; rw [h]

theorem propagate_congr (c : Cfg) (m : String) (s : Stg) (l : List Stg) (f g : Option String → Stg → Option Code)
    (h : f (some m) = g (some m)) : propagate c m s f l (some m) = propagate c m s g l (some m) := by
  induction l generalizing f g with
  | nil => exact h
  | cons x r ih =>
    simp only [propagate]
    apply ih
    split
    · exact setErr_congr f g m h _ _
    · exact h

theorem errsOf_congr (c : Cfg) (m : String) (evs : List Ev) (f g : Option String → Stg → Option Code)
    (h : f (some m) = g (some m)) : errsOf c m evs f (some m) = errsOf c m evs g (some m) := by
  induction evs generalizing f g with
  | nil => exact h
  | cons x r ih =>
    simp only [errsOf]
    apply ih
    cases x.err with
    | none => exact h
    | some e => exact propagate_congr c m _ _ _ _ (setErr_congr f g m h _ _)

theorem processAll_after (c : Cfg) (v : Env σ) (l : List String) (hl : l.Nodup) (hc : ∀ m ∈ l, m ≠ "classification") (t : St σ)
    (hs : t.scope = []) :
    ∃ evf : String → List Ev, (∀ m ∈ l, Shape c m (evf m)) ∧ (processAll c v l t).scope = [] ∧
      (processAll c v l t).trace = t.trace ++ l.flatMap evf ∧
      (∀ m ∈ l, (processAll c v l t).errors (some m) = errsOf c m (evf m) t.errors (some m)) ∧
      (∀ k, (∀ m ∈ l, k ≠ some m) → (processAll c v l t).errors k = t.errors k) := by
  induction l generalizing t with
  | nil => exact ⟨fun _ => [], by simp, hs, by simp [processAll], by simp, fun _ _ => rfl⟩
  | cons m r ih =>
    obtain ⟨a, ha, sa⟩ := processModel_after c v t (hc m (by simp)) hs
    have hn : m ∉ r := (List.nodup_cons.1 hl).1
    obtain ⟨evf, h1, h2, h3, h4, h5⟩ := ih (List.nodup_cons.1 hl).2 (fun m' hm' => hc m' (by simp [hm'])) (processModel c v m t)
      (ha.1.trans hs)
    have hne : ∀ m' ∈ r, m' ≠ m := fun m' hm' e => hn (e ▸ hm')
    refine ⟨fun k => if k = m then a else evf k, ?_, h2, ?_, ?_, ?_⟩
    · intro m' hm'
      dsimp only
      by_cases e : m' = m
      · subst e; rw [if_pos rfl]; exact sa
      · rw [if_neg e]; exact h1 m' (by simpa [e] using hm')
    · show (processAll c v r (processModel c v m t)).trace = _
      have e : r.flatMap evf = r.flatMap (fun k => if k = m then a else evf k) :=
        List.flatMap_congr fun m' hm' => (if_neg (hne m' hm')).symm
      rw [h3, ha.2.2, e]
      simp
    · intro m' hm'
      show (processAll c v r (processModel c v m t)).errors (some m') = _
      dsimp only
      by_cases e : m' = m
      · subst e
        rw [if_pos rfl, h5 (some m') (fun m'' h'' e => hne m'' h'' (Option.some.inj e).symm), ha.2.1]
      · rw [if_neg e, h4 m' (by simpa [e] using hm')]
        apply errsOf_congr
        rw [ha.2.1]
        funext s
        exact errsOf_other c m a _ _ (fun h => e (Option.some.inj h)) s
    · intro k hk
      show (processAll c v r (processModel c v m t)).errors k = _
      rw [h5 k (fun m' hm' => hk m' (by simp [hm'])), ha.2.1]
      funext s
      exact errsOf_other c m a _ _ (hk m (by simp)) s

/-! ## The run -/

theorem initialise_cases (c : Cfg) (v : Env σ) (w : σ) :
    (∃ w' e, initialise c v ⟨w, [], fun _ _ => none, []⟩ =
      (⟨w', [], storeError c e none .init (fun _ _ => none), [⟨.init, none, some e⟩]⟩, true)) ∨
    (∃ w', initialise c v ⟨w, [], fun _ _ => none, []⟩ = (⟨w', [], fun _ _ => none, [⟨.init, none, none⟩]⟩, false)) := by
  have hs : scopeModel [] = none := by decide
  unfold initialise
  dsimp only
  rw [hs]
  rcases h : v.exec .init none w with ⟨w', o⟩
  cases o with
  | some e => exact Or.inl ⟨w', e, rfl⟩
  | none => exact Or.inr ⟨w', rfl⟩

/-- The calls of the end of the run: the classification, when asked for and not all solvers failed, and the loading of the results. -/
def Tail (c : Cfg) (er : Option String → Stg → Option Code) (l : List Ev) : Prop :=
  ∃ o, if solverUsed c = true ∧ ∃ m ∈ c.models, er (some m) .redshift = none
    then ∃ o', l = [⟨.classification, none, o'⟩, ⟨.loadStore, none, o⟩] else l = [⟨.loadStore, none, o⟩]

theorem allFailed_iff (c : Cfg) (t : St σ) : allFailed c t = true ↔ ¬ ∃ m ∈ c.models, t.errors (some m) .redshift = none := by
  simp [allFailed, Option.isSome_iff_ne_none]

theorem scope_class : scopeModel [(.model, "classification"), (.stage, "classification")] = none := by decide

theorem step_root (c : Cfg) (v : Env σ) (s : Stg) (t : St σ) (hs : scopeModel (t.scope ++ [(.stage, s.name)]) = none) :
    ∃ w' o, step c v s t = (⟨w', t.scope, (match o with | none => t.errors | some e => storeError c e none s t.errors),
      t.trace ++ [⟨s, none, o⟩]⟩, o.isSome) := by
  unfold step
  dsimp only
  rw [hs]
  exact ⟨_, _, rfl⟩

theorem storeError_root (c : Cfg) (e : String) (s : Stg) (hs : s ≠ .init) (f : Option String → Stg → Option Code) (m : String) :
    storeError c e none s f (some m) = f (some m) := by
  funext s'
  simp [storeError, hs, setErr]

theorem classify_after (c : Cfg) (v : Env σ) (t : St σ) (hs : t.scope = []) :
    (classify c v t).scope = [] ∧ (∀ m, (classify c v t).errors (some m) = t.errors (some m)) ∧
    ((allFailed c t = true ∧ (classify c v t).trace = t.trace ∧ (classify c v t).errors none .classification = some (.own "NO_CLASSIFICATION")) ∨
     (allFailed c t = false ∧ ∃ o, (classify c v t).trace = t.trace ++ [⟨.classification, none, o⟩] ∧
       (t.errors none .classification = none → (classify c v t).errors none .classification = o.map .own))) := by
  unfold classify
  by_cases h : allFailed c t = true
  · rw [if_pos h]
    dsimp only
    rw [hs]
    refine ⟨rfl, fun m => storeError_root c _ .classification (by decide) _ m, Or.inl ⟨h, rfl, ?_⟩⟩
    show storeError c "NO_CLASSIFICATION" (scopeModel [(.model, "classification"), (.stage, "classification")]) _ _ _ _ = _
    rw [scope_class]
    simp [storeError, setErr]
  · rw [if_neg h]
    have h' : allFailed c t = false := by simpa using h
    obtain ⟨w', o, e⟩ := step_root c v .classification ⟨t.w, t.scope ++ [(.model, "classification")], t.errors, t.trace⟩
      (by rw [hs]; exact scope_class)
    dsimp only
    rw [e]
    refine ⟨by simp [hs], fun m => ?_, Or.inr ⟨h', o, rfl, fun h0 => ?_⟩⟩
    · cases o with
      | none => rfl
      | some e1 => exact storeError_root c e1 .classification (by decide) _ m
    · cases o with
      | none => exact h0
      | some e => simp [storeError, setErr]

/-- Everything known of a run whose initialisation succeeded. -/
theorem runModels_after (c : Cfg) (v : Env σ) (w : σ) (hc : WF c) :
    let st := runModels c v ⟨w, [], fun _ _ => none, [⟨.init, none, none⟩]⟩
    ∃ evf : String → List Ev, (∀ m ∈ c.models, Shape c m (evf m)) ∧ st.scope = [] ∧
      (∃ l, Tail c st.errors l ∧ st.trace = [⟨.init, none, none⟩] ++ c.models.flatMap evf ++ l) ∧
      (∀ m ∈ c.models, st.errors (some m) = errsOf c m (evf m) (fun _ _ => none) (some m)) ∧
      (solverUsed c = true → (∀ m ∈ c.models, st.errors (some m) .redshift ≠ none) →
        st.errors none .classification = some (.own "NO_CLASSIFICATION")) ∧
      ∀ o, (⟨.classification, none, o⟩ : Ev) ∈ st.trace → st.errors none .classification = o.map .own := by
  intro st
  obtain ⟨evf, h1, h2, h3, h4, h5⟩ := processAll_after c v c.models hc.1 (fun m hm => (hc.2 m hm).2)
    ⟨w, [], fun _ _ => none, [⟨.init, none, none⟩]⟩ rfl
  have hnc : ∀ o, (⟨.classification, none, o⟩ : Ev) ∉ c.models.flatMap evf := by
    intro o ho
    obtain ⟨m, hm, hev⟩ := List.mem_flatMap.1 ho
    have := shape_model (h1 m hm) _ hev
    cases this
  have hcn := h5 none (fun m _ => by simp)
  obtain ⟨u1, u2, u3⟩ := classify_after c v (processAll c v c.models ⟨w, [], fun _ _ => none, [⟨.init, none, none⟩]⟩) h2
  by_cases hu : solverUsed c = true
  · obtain ⟨w', o, e⟩ := step_root c v .loadStore (classify c v (processAll c v c.models ⟨w, [], fun _ _ => none, [⟨.init, none, none⟩]⟩))
      (by rw [u1]; decide)
    have est : st = (step c v .loadStore (classify c v (processAll c v c.models ⟨w, [], fun _ _ => none, [⟨.init, none, none⟩]⟩))).1 := by
      show (step c v .loadStore (if solverUsed c = true then _ else _)).1 = _
      rw [if_pos hu]
    rw [e] at est
    dsimp only at est
    have eerr : ∀ m, st.errors (some m) = (processAll c v c.models ⟨w, [], fun _ _ => none, [⟨.init, none, none⟩]⟩).errors (some m) := by
      intro m
      rw [est, ← u2 m]
      cases o with
      | none => rfl
      | some e1 => exact storeError_root c e1 .loadStore (by decide) _ m
    have ecl : st.errors none .classification =
        (classify c v (processAll c v c.models ⟨w, [], fun _ _ => none, [⟨.init, none, none⟩]⟩)).errors none .classification := by
      rw [est]
      cases o with
      | none => rfl
      | some e => simp [storeError, setErr]
    refine ⟨evf, h1, by rw [est]; exact u1, ?_, fun m hm => by rw [eerr, h4 m hm], ?_, ?_⟩
    · rcases u3 with ⟨a, tr, -⟩ | ⟨a, o', tr, -⟩
      · refine ⟨[⟨.loadStore, none, o⟩], ⟨o, ?_⟩, by rw [est]; show _ ++ _ = _; rw [tr, h3]⟩
        rw [if_neg]
        rintro ⟨-, m, hm, hm'⟩
        exact (allFailed_iff c _).1 a ⟨m, hm, by rw [← eerr]; exact hm'⟩
      · refine ⟨[⟨.classification, none, o'⟩, ⟨.loadStore, none, o⟩], ⟨o, ?_⟩, by
          rw [est]; show _ ++ _ = _; rw [tr, h3]; simp⟩
        rw [if_pos]
        · exact ⟨o', rfl⟩
        · refine ⟨hu, ?_⟩
          by_contra hcon
          have : allFailed c (processAll c v c.models ⟨w, [], fun _ _ => none, [⟨.init, none, none⟩]⟩) = true := by
            rw [allFailed_iff]
            rintro ⟨m, hm, hm'⟩
            exact hcon ⟨m, hm, by rw [eerr]; exact hm'⟩
          rw [this] at a; cases a
    · intro _ hall
      rw [ecl]
      rcases u3 with ⟨-, -, r⟩ | ⟨a, -⟩
      · exact r
      · exfalso
        have : allFailed c (processAll c v c.models ⟨w, [], fun _ _ => none, [⟨.init, none, none⟩]⟩) = true := by
          rw [allFailed_iff]
          rintro ⟨m, hm, hm'⟩
          exact hall m hm (by rw [eerr]; exact hm')
        rw [this] at a; cases a
    · intro o' ho'
      rw [ecl]
      rw [est] at ho'
      have ho'' : (⟨.classification, none, o'⟩ : Ev) ∈
          (classify c v (processAll c v c.models ⟨w, [], fun _ _ => none, [⟨.init, none, none⟩]⟩)).trace := by
        simpa using ho'
      rcases u3 with ⟨-, tr, -⟩ | ⟨-, o1, tr, r⟩
      · rw [tr, h3] at ho''
        simp only [List.mem_append, List.mem_singleton] at ho''
        rcases ho'' with h | h
        · cases h
        · exact absurd h (hnc o')
      · rw [tr, h3] at ho''
        simp only [List.mem_append, List.mem_singleton] at ho''
        rcases ho'' with (h | h) | h
        · cases h
        · exact absurd h (hnc o')
        · have : o' = o1 := congrArg Ev.err h
          rw [this]
          exact r (by rw [hcn])
  · obtain ⟨w', o, e⟩ := step_root c v .loadStore (processAll c v c.models ⟨w, [], fun _ _ => none, [⟨.init, none, none⟩]⟩)
      (by rw [h2]; decide)
    have est : st = (step c v .loadStore (processAll c v c.models ⟨w, [], fun _ _ => none, [⟨.init, none, none⟩]⟩)).1 := by
      show (step c v .loadStore (if solverUsed c = true then _ else _)).1 = _
      rw [if_neg hu]
    rw [e] at est
    dsimp only at est
    have eerr : ∀ m, st.errors (some m) = (processAll c v c.models ⟨w, [], fun _ _ => none, [⟨.init, none, none⟩]⟩).errors (some m) := by
      intro m
      rw [est]
      cases o with
      | none => rfl
      | some e1 => exact storeError_root c e1 .loadStore (by decide) _ m
    refine ⟨evf, h1, by rw [est]; exact h2, ?_, fun m hm => by rw [eerr, h4 m hm], fun h => absurd h hu, ?_⟩
    · refine ⟨[⟨.loadStore, none, o⟩], ⟨o, ?_⟩, by rw [est]; show _ ++ _ = _; rw [h3]⟩
      rw [if_neg (fun h => hu h.1)]
    · intro o' ho'
      exfalso
      rw [est] at ho'
      have : (⟨.classification, none, o'⟩ : Ev) ∈ (processAll c v c.models ⟨w, [], fun _ _ => none, [⟨.init, none, none⟩]⟩).trace := by
        simpa using ho'
      rw [h3] at this
      simp only [List.mem_append, List.mem_singleton] at this
      rcases this with h | h
      · cases h
      · exact hnc o' h

theorem propagate_eval (c : Cfg) (m : String) (cz : Stg) (l : List Stg) (f : Option String → Stg → Option Code) (k : Option String) (s : Stg) :
    propagate c m cz f l k s = if k = some m ∧ s ∈ l ∧ stageEnabled c m s = true then some (.previous cz) else f k s := by
  induction l generalizing f with
  | nil => simp [propagate]
  | cons x r ih =>
    simp only [propagate, ih]
    by_cases hk : k = some m
    · subst hk
      by_cases hx : s = x
      · subst hx
        by_cases he : stageEnabled c m s = true
        · simp [he, setErr]
        · simp [he]
      · by_cases he : stageEnabled c m x = true <;> simp [he, setErr, hx]
    · by_cases he : stageEnabled c m x = true <;> simp [he, setErr, hk]

theorem propagateAll_eval (c : Cfg) (l : List String) (f : Option String → Stg → Option Code) (k : Option String) (s : Stg) :
    propagateAll c f l k s = if ∃ m ∈ l, k = some m ∧ s ∈ modelStages ∧ stageEnabled c m s = true then some (.previous .init) else f k s := by
  induction l generalizing f with
  | nil => simp [propagateAll]
  | cons x r ih =>
    simp only [propagateAll, ih, propagate_eval]
    by_cases h1 : ∃ m ∈ r, k = some m ∧ s ∈ modelStages ∧ stageEnabled c m s = true
    · rw [if_pos h1, if_pos]
      obtain ⟨m, hm, h⟩ := h1
      exact ⟨m, by simp [hm], h⟩
    · rw [if_neg h1]
      by_cases h2 : k = some x ∧ s ∈ modelStages ∧ stageEnabled c x s = true
      · rw [if_pos h2, if_pos ⟨x, by simp, h2⟩]
      · rw [if_neg h2, if_neg]
        rintro ⟨m, hm, h⟩
        rcases List.mem_cons.1 hm with e | hm
        · subst e; exact h2 h
        · exact h1 ⟨m, hm, h⟩

theorem enabled_modelStage (h : stageEnabled c m s = true) : s ∈ modelStages := by
  cases s <;> simp_all [stageEnabled, modelStages]

/-- A stage recorded as not run was asked for, and depends on the stage blamed. -/
theorem errsOf_prev (c : Cfg) (m : String) (evs : List Ev) (f : Option String → Stg → Option Code)
    (h0 : ∀ s s', f (some m) s = some (.previous s') → stageEnabled c m s = true ∧ s ∈ deps s') (s s' : Stg)
    (h : errsOf c m evs f (some m) s = some (.previous s')) : stageEnabled c m s = true ∧ s ∈ deps s' := by
  induction evs generalizing f with
  | nil => exact h0 s s' h
  | cons x r ih =>
    refine ih _ (fun t t' ht => ?_) h
    cases hx : x.err with
    | none => rw [hx] at ht; exact h0 t t' ht
    | some e =>
      rw [hx] at ht
      simp only [storeError, propagate_eval] at ht
      split_ifs at ht with h1
      · cases ht
        exact ⟨h1.2.2, h1.2.1⟩
      · unfold setErr at ht
        split_ifs at ht with h2
        all_goals first | exact h0 t t' ht | (cases ht; done)

/-- Everything known of a finished run. -/
theorem run_after (c : Cfg) (v : Env σ) (w : σ) (st : St σ) (hc : WF c) (h : run c v w = some st) :
    ((∃ e, st.trace = [⟨.init, none, some e⟩] ∧ st.errors none .init = some (.own e)) ∧ st.scope = [] ∧
      ∀ m s, st.errors (some m) s = if m ∈ c.models ∧ stageEnabled c m s = true then some (.previous .init) else none) ∨
    ∃ w', st = runModels c v ⟨w', [], fun _ _ => none, [⟨.init, none, none⟩]⟩ := by
  unfold run at h
  dsimp only at h
  rcases initialise_cases c v w with ⟨w', e, h1⟩ | ⟨w', h1⟩
  · rw [h1] at h
    rw [if_pos rfl] at h
    split_ifs at h with h2
    refine Or.inl ?_
    rw [← Option.some.inj h]
    refine ⟨⟨e, rfl, ?_⟩, rfl, fun m s => ?_⟩
    · show storeError c e none .init _ none .init = _
      simp [storeError, propagateAll_eval, setErr]
    · show storeError c e none .init _ (some m) s = _
      simp only [storeError, if_true, propagateAll_eval]
      by_cases h3 : m ∈ c.models ∧ stageEnabled c m s = true
      · rw [if_pos h3, if_pos ⟨m, h3.1, rfl, enabled_modelStage h3.2, h3.2⟩]
      · rw [if_neg h3, if_neg]
        · rfl
        · rintro ⟨m', hm', e', -, he⟩
          cases e'
          exact h3 ⟨hm', he⟩
  · rw [h1] at h
    rw [if_neg (by simp)] at h
    exact Or.inr ⟨w', (Option.some.inj h).symm⟩

theorem ran_iff (c : Cfg) (evf : String → List Ev) (er : Option String → Stg → Option Code) (l : List Ev) (ht : Tail c er l)
    (hs : ∀ m ∈ c.models, Shape c m (evf m)) (m : String) (s : Stg) (o : Option String) :
    (⟨s, some m, o⟩ : Ev) ∈ [⟨.init, none, none⟩] ++ c.models.flatMap evf ++ l ↔ m ∈ c.models ∧ (⟨s, some m, o⟩ : Ev) ∈ evf m := by
  have hl : (⟨s, some m, o⟩ : Ev) ∉ l := by
    obtain ⟨o1, h⟩ := ht
    split_ifs at h
    · obtain ⟨o', rfl⟩ := h; simp
    · rw [h]; simp
  simp only [List.mem_append, List.mem_flatMap, List.mem_singleton]
  constructor
  · rintro ((h | ⟨m', hm', h⟩) | h)
    · cases h
    · have := shape_model (hs m' hm') _ h
      cases Option.some.inj this
      exact ⟨hm', h⟩
    · exact absurd h hl
  · rintro ⟨h, h'⟩
    exact Or.inl (Or.inr ⟨m, h, h'⟩)

/-- The events of each model, of a run whose initialisation succeeded. -/
theorem run_ok (c : Cfg) (v : Env σ) (w : σ) (st : St σ) (hc : WF c) (h : run c v w = some st) (hi : InitOk st) :
    ∃ evf : String → List Ev, (∀ m ∈ c.models, Shape c m (evf m)) ∧ st.scope = [] ∧
      (∃ l, Tail c st.errors l ∧ st.trace = [⟨.init, none, none⟩] ++ c.models.flatMap evf ++ l) ∧
      (∀ m ∈ c.models, st.errors (some m) = errsOf c m (evf m) (fun _ _ => none) (some m)) ∧
      (solverUsed c = true → (∀ m ∈ c.models, st.errors (some m) .redshift ≠ none) →
        st.errors none .classification = some (.own "NO_CLASSIFICATION")) ∧
      (∀ o, (⟨.classification, none, o⟩ : Ev) ∈ st.trace → st.errors none .classification = o.map .own) ∧
      ∀ m s o, Ran st m s o ↔ m ∈ c.models ∧ (⟨s, some m, o⟩ : Ev) ∈ evf m := by
  rcases run_after c v w st hc h with ⟨⟨e, h1, -⟩, -⟩ | ⟨w', rfl⟩
  · unfold InitOk at hi; rw [h1] at hi; simp at hi
  · obtain ⟨evf, a, b, ⟨l, hl, ht⟩, d, e, f⟩ := runModels_after c v w' hc
    refine ⟨evf, a, b, ⟨l, hl, ht⟩, d, e, f, fun m s o => ?_⟩
    unfold Ran
    rw [ht]
    exact ran_iff c evf _ l hl a m s o

theorem init_cases (c : Cfg) (v : Env σ) (w : σ) (st : St σ) (hc : WF c) (h : run c v w = some st) :
    InitOk st ∨ ((∃ e, st.trace = [⟨.init, none, some e⟩] ∧ st.errors none .init = some (.own e)) ∧ st.scope = [] ∧
      ∀ m s, st.errors (some m) s = if m ∈ c.models ∧ stageEnabled c m s = true then some (.previous .init) else none) := by
  rcases run_after c v w st hc h with h1 | ⟨w', rfl⟩
  · exact Or.inr h1
  · refine Or.inl ?_
    obtain ⟨evf, -, -, ⟨l, -, ht⟩, -⟩ := runModels_after c v w' hc
    unfold InitOk
    rw [ht]; simp

/-! ## The theorems -/

/-- Once the initialisation succeeded, the redshift solver of every model that has one is called, whatever happened to the other models. -/
theorem C198_models (c : Cfg) (v : Env σ) (w : σ) (st : St σ) (hc : WF c) (h : run c v w = some st) (hi : InitOk st)
    (m : String) (hm : m ∈ c.models) (hz : (zMethod c m).isSome = true) : ∃ o, Ran st m .redshift o := by
  obtain ⟨evf, sh, -, -, -, -, -, hr⟩ := run_ok c v w st hc h hi
  rcases sh m hm with ⟨-, e, he⟩ | ⟨-, a, b, d, he, -⟩ | ⟨z, -⟩ | ⟨z, -⟩
  · exact ⟨some e, (hr _ _ _).2 ⟨hm, by rw [he]; simp⟩⟩
  · exact ⟨none, (hr _ _ _).2 ⟨hm, by rw [he]; simp⟩⟩
  · rw [zMethod_truthy, hz] at z; cases z
  · rw [zMethod_truthy, hz] at z; cases z

/-- The recorded errors of a model are those of its stages: a stage that failed has its own code, a stage that succeeded has none, a stage
marked as not run was asked for, was not run, and the stage blamed is one it uses and failed for this model (or the initialisation failed). -/
theorem C198_errors (c : Cfg) (v : Env σ) (w : σ) (st : St σ) (hc : WF c) (h : run c v w = some st) (m : String) (hm : m ∈ c.models)
    (s : Stg) :
    (∀ e, st.errors (some m) s = some (.own e) ↔ Ran st m s (some e)) ∧
    (Ran st m s none → st.errors (some m) s = none) ∧
    (∀ s', st.errors (some m) s = some (.previous s') → stageEnabled c m s = true ∧ (∀ o, ¬ Ran st m s o) ∧
      ((Needs s s' ∧ ∃ e, Ran st m s' (some e)) ∨ s' = .init ∧ ∃ e, (⟨.init, none, some e⟩ : Ev) ∈ st.trace)) := by
  rcases init_cases c v w st hc h with hi | ⟨⟨e, h1, -⟩, -, h2⟩
  · obtain ⟨evf, sh, -, -, her, -, -, hr⟩ := run_ok c v w st hc h hi
    have F := shape_facts (sh m hm) (fun _ _ => none) (fun _ => rfl)
    rw [her m hm]
    refine ⟨fun e => ⟨fun h => (hr _ _ _).2 ⟨hm, F.own s e h⟩, fun h => F.fail s e ((hr _ _ _).1 h).2⟩, fun h => F.ok s ((hr _ _ _).1 h).2,
      fun s' h => ⟨(errsOf_prev c m _ _ (fun _ _ h => by cases h) s s' h).1, fun o ho => (F.prev s s' h).2 o ((hr _ _ _).1 ho).2,
      Or.inl ⟨?_, ?_⟩⟩⟩
    · have := (errsOf_prev c m _ _ (fun _ _ h => by cases h) s s' h).2
      cases s' <;> simp [deps, Needs] at this ⊢ <;> rcases this with rfl | rfl | rfl <;> simp
    obtain ⟨e, he⟩ := (F.prev s s' h).1
    exact ⟨e, (hr _ _ _).2 ⟨hm, he⟩⟩
  · have hn : ∀ s o, ¬ Ran st m s o := by intro s o ho; unfold Ran at ho; rw [h1] at ho; simp at ho
    refine ⟨fun e => ⟨fun h => ?_, fun h => absurd h (hn _ _)⟩, fun h => absurd h (hn _ _), fun s' h => ?_⟩
    · rw [h2] at h; split_ifs at h; simp at h
    · rw [h2] at h; split_ifs at h with h3
      simp at h
      exact ⟨h3.2, hn s, Or.inr ⟨h.symm, e, by rw [h1]; simp⟩⟩

/-- Each stage is called at most once for each model. -/
theorem C198_once (c : Cfg) (v : Env σ) (w : σ) (st : St σ) (hc : WF c) (h : run c v w = some st) :
    (st.trace.map fun ev => (ev.stg, ev.model)).Nodup := by
  rcases init_cases c v w st hc h with hi | ⟨⟨e, h1, -⟩, -, h2⟩
  · obtain ⟨evf, sh, -, ⟨l, hl, ht⟩, -⟩ := run_ok c v w st hc h hi
    have hm : ∀ m ∈ c.models, ∀ ev ∈ evf m, ev.model = some m := fun m hm => shape_model (sh m hm)
    have hl' : (l.map fun ev => (ev.stg, ev.model)).Nodup ∧ ∀ ev ∈ l, ev.model = none ∧ ev.stg ≠ .init := by
      obtain ⟨o, hl⟩ := hl
      split_ifs at hl
      · obtain ⟨o', rfl⟩ := hl; simp
      · rw [hl]; simp
    rw [ht, List.map_append, List.map_append, List.nodup_append, List.nodup_append]
    refine ⟨⟨by simp, ?_, ?_⟩, hl'.1, ?_⟩
    · rw [List.map_flatMap, List.nodup_flatMap]
      refine ⟨fun m hm' => ?_, ?_⟩
      · have F := shape_facts (sh m hm') (fun _ _ => none) (fun _ => rfl)
        have := F.once
        rw [List.nodup_iff_injective_get] at this
        exact (F.once.map_on (f := fun s => (s, some m)) (fun x _ y _ hxy => (Prod.mk.inj hxy).1) |> fun z => by
          rw [List.map_map] at z
          convert z using 1
          exact List.map_congr_left fun ev hev => by simp [hm m hm' ev hev])
      · refine hc.1.pairwise_of_forall_ne ?_ |>.imp fun h => h
        intro m1 h1 m2 h2 hne x hx hy
        obtain ⟨e1, he1, rfl⟩ := List.mem_map.1 hx
        obtain ⟨e2, he2, heq⟩ := List.mem_map.1 hy
        have := (Prod.mk.inj heq).2
        rw [hm m2 h2 e2 he2, hm m1 h1 e1 he1] at this
        exact hne (Option.some.inj this).symm
    · intro x hx y hy
      obtain ⟨ev, hev, rfl⟩ := List.mem_map.1 hy
      obtain ⟨m, hm1, hm2⟩ := List.mem_flatMap.1 hev
      simp at hx
      rw [hx, hm m hm1 ev hm2]
      simp
    · intro x hx y hy
      obtain ⟨ev, hev, rfl⟩ := List.mem_map.1 hy
      rw [(hl'.2 ev hev).1]
      rw [List.mem_append] at hx
      rcases hx with hx | hx
      · simp at hx
        rw [hx]
        exact fun e => (hl'.2 ev hev).2 (Prod.mk.inj e).1.symm
      · obtain ⟨ev', hev', rfl⟩ := List.mem_map.1 hx
        obtain ⟨m, hm1, hm2⟩ := List.mem_flatMap.1 hev'
        rw [hm m hm1 ev' hm2]
        simp
  · rw [h1]; simp

/-- Every stage asked for is run or is recorded as not run because of a failure: partly, for the parameters whose stages are all reachable
(see `Reachable`), and not for the loading of a catalogue of lines. -/
theorem C198_stages_partial (c : Cfg) (v : Env σ) (w : σ) (st : St σ) (hc : WF c) (h : run c v w = some st) (m : String) (hm : m ∈ c.models)
    (hr : Reachable c m) (s : Stg) (hs : s ≠ .lmLoad) (he : stageEnabled c m s = true) :
    (∃ o, Ran st m s o) ∨ ∃ s', st.errors (some m) s = some (.previous s') := by
  rcases init_cases c v w st hc h with hi | ⟨-, -, h2⟩
  · obtain ⟨evf, sh, -, -, her, -, -, hr'⟩ := run_ok c v w st hc h hi
    rcases shape_account (sh m hm) (fun _ _ => none) (fun _ => rfl) hr s hs he with ⟨o, ho⟩ | hp
    · exact Or.inl ⟨o, (hr' _ _ _).2 ⟨hm, ho⟩⟩
    · rw [her m hm]; exact Or.inr hp
  · exact Or.inr ⟨.init, by rw [h2, if_pos ⟨hm, he⟩]⟩

/-- The stages run for a model and its errors depend only on the outcomes of its own stages: two runs in which they are the same agree
on this model, whatever happens to the others. -/
theorem C198_isolated (c : Cfg) (v v' : Env σ) (w w' : σ) (st st' : St σ) (hc : WF c) (h : run c v w = some st) (h' : run c v' w' = some st')
    (hi : InitOk st) (hi' : InitOk st') (m : String) (hm : m ∈ c.models)
    (ha : ∀ s o1 o2, Ran st m s o1 → Ran st' m s o2 → o1 = o2) :
    (∀ s o, Ran st m s o ↔ Ran st' m s o) ∧ ∀ s, st.errors (some m) s = st'.errors (some m) s := by
  obtain ⟨evf, sh, -, -, her, -, -, hr⟩ := run_ok c v w st hc h hi
  obtain ⟨evf', sh', -, -, her', -, -, hr'⟩ := run_ok c v' w' st' hc h' hi'
  have e := shape_det (sh m hm) (sh' m hm) (fun s o1 o2 a b => ha s o1 o2 ((hr _ _ _).2 ⟨hm, a⟩) ((hr' _ _ _).2 ⟨hm, b⟩))
  refine ⟨fun s o => ?_, fun s => ?_⟩
  · rw [hr, hr', e]
  · rw [her m hm, her' m hm, e]

/-- The classification is run exactly when a redshift solver is configured and some model has no failed redshift solver; otherwise, with a
redshift solver configured, its absence is recorded. -/
theorem C198_classif (c : Cfg) (v : Env σ) (w : σ) (st : St σ) (hc : WF c) (h : run c v w = some st) (hi : InitOk st) :
    ((∃ o, (⟨.classification, none, o⟩ : Ev) ∈ st.trace) ↔
      (∃ m ∈ c.models, (zMethod c m).isSome = true) ∧ ∃ m ∈ c.models, ∀ e, ¬ Ran st m .redshift (some e)) ∧
    ((∃ m ∈ c.models, (zMethod c m).isSome = true) → (∀ m ∈ c.models, ∃ e, Ran st m .redshift (some e)) →
      st.errors none .classification = some (.own "NO_CLASSIFICATION")) ∧
    ∀ o, (⟨.classification, none, o⟩ : Ev) ∈ st.trace → st.errors none .classification = o.map .own := by
  have hu : solverUsed c = true ↔ ∃ m ∈ c.models, (zMethod c m).isSome = true := by simp [solverUsed]
  have hred : ∀ m ∈ c.models, (st.errors (some m) .redshift = none ↔ ∀ e, ¬ Ran st m .redshift (some e)) := by
    intro m hm
    have E := C198_errors c v w st hc h m hm .redshift
    constructor
    · intro hn e he
      rw [((E.1 e).2 he)] at hn; cases hn
    · intro hn
      cases hx : st.errors (some m) .redshift with
      | none => rfl
      | some code =>
        exfalso
        cases code with
        | own e => exact hn e ((E.1 e).1 hx)
        | previous s' =>
          obtain ⟨h1, h2, -⟩ := E.2.2 s' hx
          obtain ⟨o, ho⟩ := C198_models c v w st hc h hi m hm h1
          exact h2 o ho
  obtain ⟨evf, sh, -, ⟨l, ⟨o1, hl⟩, ht⟩, her, hcl, hcl2, hr⟩ := run_ok c v w st hc h hi
  refine ⟨?_, ?_, hcl2⟩
  · rw [← hu]
    have hno : ∀ o, (⟨.classification, none, o⟩ : Ev) ∉ c.models.flatMap evf := by
      intro o ho
      obtain ⟨m, hm, hev⟩ := List.mem_flatMap.1 ho
      have := shape_model (sh m hm) _ hev
      cases this
    constructor
    · rintro ⟨o, ho⟩
      rw [ht] at ho
      by_cases hcond : solverUsed c = true ∧ ∃ m ∈ c.models, st.errors (some m) .redshift = none
      · obtain ⟨a, m, hm, b⟩ := hcond
        exact ⟨a, m, hm, (hred m hm).1 b⟩
      · rw [if_neg hcond] at hl
        rw [hl] at ho
        simp at ho
        obtain ⟨m, hm, hev⟩ := ho
        exact absurd (List.mem_flatMap.2 ⟨m, hm, hev⟩) (hno o)
    · rintro ⟨a, m, hm, b⟩
      rw [if_pos ⟨a, m, hm, (hred m hm).2 b⟩] at hl
      obtain ⟨o', rfl⟩ := hl
      exact ⟨o', by rw [ht]; simp⟩
  · intro h1 h2
    refine hcl (hu.2 h1) (fun m hm hn => ?_)
    obtain ⟨e, he⟩ := h2 m hm
    exact (hred m hm).1 hn e he

/-- The results are loaded at the end of every run whose initialisation succeeded. -/
theorem C198_load (c : Cfg) (v : Env σ) (w : σ) (st : St σ) (hc : WF c) (h : run c v w = some st) (hi : InitOk st) :
    ∃ o, st.trace.getLast? = some ⟨.loadStore, none, o⟩ := by
  obtain ⟨evf, sh, -, ⟨l, ⟨o, hl⟩, ht⟩, -⟩ := run_ok c v w st hc h hi
  refine ⟨o, ?_⟩
  rw [ht]
  split_ifs at hl
  · obtain ⟨o', rfl⟩ := hl; rw [List.getLast?_append]; rfl
  · rw [hl, List.getLast?_append]; rfl

/-- When the initialisation fails nothing else is run, its error is recorded, and every stage asked for is recorded as not run. -/
theorem C198_init (c : Cfg) (v : Env σ) (w : σ) (st : St σ) (hc : WF c) (h : run c v w = some st) (hi : ¬ InitOk st) :
    ∃ e, st.trace = [⟨.init, none, some e⟩] ∧ st.errors none .init = some (.own e) ∧
      ∀ m ∈ c.models, ∀ s, st.errors (some m) s = if stageEnabled c m s = true then some (.previous .init) else none := by
  rcases init_cases c v w st hc h with h1 | ⟨⟨e, h1, h2⟩, -, h3⟩
  · exact absurd h1 hi
  · exact ⟨e, h1, h2, fun m hm s => by rw [h3]; simp [hm]⟩

/-- The stack of scopes is empty after the run, and no exception leaves it, unless both the initialisation and the loading of the root of
the results failed. -/
theorem C198_scope (c : Cfg) (v : Env σ) (w : σ) (hc : WF c) :
    (∀ st, run c v w = some st → st.scope = []) ∧
    (run c v w = none ↔ (∃ e, (v.exec .init none w).2 = some e) ∧ v.loadRoot (v.exec .init none w).1 = false) := by
  constructor
  · intro st h
    rcases run_after c v w st hc h with ⟨-, h1, -⟩ | ⟨w', rfl⟩
    · exact h1
    · obtain ⟨_, -, h1, -⟩ := runModels_after c v w' hc
      exact h1
  · have hs : scopeModel [] = none := by decide
    unfold run initialise
    dsimp only
    rw [hs]
    rcases h : v.exec .init none w with ⟨w', o⟩
    dsimp only
    cases o with
    | none => simp
    | some e => simp

/-! ## Keys of the errors -/

theorem name_differ (s s' : Stg) (h : s ≠ s') :
    ∃ i < 10, (s.name.toList[i]?).isSome = true ∧ (s'.name.toList[i]?).isSome = true ∧ s.name.toList[i]? ≠ s'.name.toList[i]? := by
  cases s <;> cases s' <;> first | exact absurd rfl h | decide +kernel

theorem fullName_list (m : Option String) (s : Stg) : ∃ l, (fullName m s).toList = s.name.toList ++ l := by
  cases m with
  | none => exact ⟨[], by simp [fullName]⟩
  | some m =>
    simp only [fullName]
    split_ifs
    · exact ⟨[], by simp⟩
    · exact ⟨'_' :: m.toList, by simp [String.toList_append]⟩

/-- The keys under which the errors are stored and read are different for different stages and models (with a non-empty name), so no error
overwrites another one. -/
theorem C198_key (m m' : Option String) (s s' : Stg) (hm : m ≠ some "") (hm' : m' ≠ some "") (h : fullName m s = fullName m' s') :
    m = m' ∧ s = s' := by
  have hs : s = s' := by
    apply Classical.byContradiction
    intro hne
    obtain ⟨i, -, h1, h2, h3⟩ := name_differ s s' hne
    obtain ⟨l, hl⟩ := fullName_list m s
    obtain ⟨l', hl'⟩ := fullName_list m' s'
    have e : s.name.toList ++ l = s'.name.toList ++ l' := by rw [← hl, ← hl', h]
    have e2 := congrArg (fun x : List Char => x[i]?) e
    rw [List.getElem?_append_left (by simpa using h1), List.getElem?_append_left (by simpa using h2)] at e2
    exact h3 e2
  subst hs
  refine ⟨?_, rfl⟩
  have e := congrArg String.toList h
  cases m with
  | none =>
    cases m' with
    | none => rfl
    | some m' =>
      have hne : m' ≠ "" := fun h => hm' (by rw [h])
      simp [fullName, hne, String.toList_append] at e
  | some m =>
    have hne : m ≠ "" := fun h => hm (by rw [h])
    cases m' with
    | none => simp [fullName, hne, String.toList_append] at e
    | some m' =>
      have hne' : m' ≠ "" := fun h => hm' (by rw [h])
      simp [fullName, hne, hne', String.toList_append] at e
      rw [String.toList_inj.1 e]

/-! ## The stages missed silently, and a classification on nothing -/

/-- All three are asked for a model `m` and the initialisation succeeds, but the stage is neither run nor recorded as not run. -/
def Missed (c : Cfg) (m : String) (s : Stg) : Prop :=
  m ∈ c.models ∧ stageEnabled c m s = true ∧ ∀ {σ : Type} (v : Env σ) (w : σ) (st : St σ), run c v w = some st → InitOk st →
    (∀ o, ¬ Ran st m s o) ∧ ((∀ e, ¬ Ran st m .redshift (some e)) → st.errors (some m) s = none)

/-- The configuration of one model. -/
def cfg1 (stages : List String) (z lm ratio : Option String) (rel cat : List String) : Cfg :=
  ⟨["g"], fun _ => ⟨stages, z, lm, ratio⟩, rel, cat⟩

theorem cfg1_wf : WF (cfg1 stages z lm ratio rel cat) := by
  refine ⟨by simp [cfg1], ?_⟩
  intro m hm
  simp [cfg1] at hm
  subst hm
  decide

theorem missed_of_shape (hw : WF c) (hm : m ∈ c.models) (he : stageEnabled c m s = true)
    (hs : ∀ evs, Shape c m evs → ∀ o, (⟨s, some m, o⟩ : Ev) ∉ evs)
    (hp : ∀ evs, Shape c m evs → (∀ e, (⟨.redshift, some m, some e⟩ : Ev) ∉ evs) → errsOf c m evs (fun _ _ => none) (some m) s = none) :
    Missed c m s := by
  refine ⟨hm, he, fun v w st h hi => ?_⟩
  obtain ⟨evf, sh, -, -, her, -, -, hr⟩ := run_ok c v w st hw h hi
  refine ⟨fun o ho => hs _ (sh m hm) o ((hr _ _ _).1 ho).2, fun hn => ?_⟩
  rw [her m hm]
  exact hp _ (sh m hm) fun e he => hn e ((hr _ _ _).2 ⟨hm, he⟩)

theorem shape_noerr (h : Shape c m evs) (s : Stg) (hs : ∀ o, (⟨s, some m, o⟩ : Ev) ∉ evs)
    (hn : ∀ s', s ∈ deps s' → ∀ e, (⟨s', some m, some e⟩ : Ev) ∉ evs) : errsOf c m evs (fun _ _ => none) (some m) s = none := by
  have F := shape_facts h (fun _ _ => none) (fun _ => rfl)
  cases hx : errsOf c m evs (fun _ _ => none) (some m) s with
  | none => rfl
  | some code =>
    exfalso
    cases code with
    | own e => exact hs _ (F.own s e hx)
    | previous s' =>
      obtain ⟨⟨e, he⟩, -⟩ := F.prev s s' hx
      exact hn s' (errsOf_prev c m _ _ (fun _ _ h => by cases h) s s' hx).2 e he

theorem missed_of (hw : WF c) (hm : m ∈ c.models) (he : stageEnabled c m s = true)
    (hs : ∀ evs, Shape c m evs → ∀ o, (⟨s, some m, o⟩ : Ev) ∉ evs) (hl : s ≠ .lineMeas ∨ ∀ evs, Shape c m evs → ∀ o, (⟨.lmLoad, some m, o⟩ : Ev) ∉ evs) :
    Missed c m s := by
  refine missed_of_shape hw hm he hs fun evs hsh hn => shape_noerr hsh s (hs evs hsh) fun s' hd e hev => ?_
  cases s' <;> simp [deps] at hd
  · exact hn e hev
  · rcases hl with hl | hl
    · exact hl hd
    · exact hl evs hsh _ hev

/-- Reliability asked for with a redshift solver, but without a network in the calibration library. -/
theorem C198_reliability_counterexample :
    Missed (cfg1 ["redshiftSolver", "reliabilitySolver"] (some "templateFittingSolve") none none [] []) "g" .reliability := by
  refine missed_of cfg1_wf (by simp [cfg1]) (by decide +kernel) (fun evs h o ho => ?_) (Or.inl (by decide))
  rcases h with ⟨-, e, rfl⟩ | ⟨-, a, b, d, rfl, sa, sb, sd⟩ | ⟨-, -, o, rfl⟩ | ⟨-, -, rfl⟩
  · simp at ho
  · rcases sb with ⟨⟨-, h⟩, -⟩ | ⟨-, rfl⟩
    · cases h
    · rcases sa with ⟨-, o1, rfl⟩ | ⟨-, rfl⟩ <;> rcases sd with ⟨-, ⟨e, rfl⟩ | ⟨o3, rfl⟩⟩ | ⟨-, rfl⟩ <;> simp at ho
  · simp at ho
  · simp at ho

/-- Reliability asked for without a redshift solver. -/
theorem C198_reliability_alone_counterexample :
    Missed (cfg1 ["lineMeasSolver", "reliabilitySolver"] none (some "lineMeasSolve") none ["g"] ["g"]) "g" .reliability := by
  refine missed_of cfg1_wf (by simp [cfg1]) (by decide +kernel) (fun evs h o ho => ?_) (Or.inl (by decide))
  rcases h with ⟨h, e, rfl⟩ | ⟨h, a, b, d, rfl, sa, sb, sd⟩ | ⟨-, -, o, rfl⟩ | ⟨-, -, rfl⟩
  · simp at ho
  · exact absurd h (by decide)
  · simp at ho
  · simp at ho

/-- A line measurement asked for after a redshift solver, for a model which also has a catalogue of line measurement. -/
theorem C198_linemeas_counterexample :
    Missed (cfg1 ["redshiftSolver", "lineMeasSolver"] (some "templateFittingSolve") (some "lineMeasSolve") none [] ["g"]) "g" .lineMeas := by
  have k : ∀ evs, Shape (cfg1 ["redshiftSolver", "lineMeasSolver"] (some "templateFittingSolve") (some "lineMeasSolve") none [] ["g"]) "g" evs →
      ∀ s o, (⟨s, some "g", o⟩ : Ev) ∈ evs → s ≠ .lineMeas ∧ s ≠ .lmLoad := by
    intro evs h s o ho
    rcases h with ⟨h, e, rfl⟩ | ⟨h, a, b, d, rfl, sa, sb, sd⟩ | ⟨h, -, o, rfl⟩ | ⟨-, -, rfl⟩
    · simp at ho; simp [ho.1]
    · rcases sa with ⟨-, o1, rfl⟩ | ⟨-, rfl⟩ <;> rcases sb with ⟨-, o2, rfl⟩ | ⟨-, rfl⟩ <;>
        rcases sd with ⟨h, -⟩ | ⟨-, rfl⟩ <;> simp [cfg1] at ho h <;> rcases ho with h | h | h <;> simp [h] <;>
        rcases ho with ⟨h, -⟩ | ⟨h, -⟩ <;> simp [h]
    · exact absurd h (by decide)
    · simp at ho
  exact missed_of cfg1_wf (by simp [cfg1]) (by decide +kernel) (fun evs h o ho => (k evs h _ o ho).1 rfl)
    (Or.inr fun evs h o ho => (k evs h _ o ho).2 rfl)

/-- A line measurement alone, for a model missing from the catalogues of line measurement. -/
theorem C198_linemeas_alone_counterexample :
    Missed (cfg1 ["lineMeasSolver"] none (some "lineMeasSolve") none [] []) "g" .lineMeas := by
  have k : ∀ evs, Shape (cfg1 ["lineMeasSolver"] none (some "lineMeasSolve") none [] []) "g" evs → evs = [] := by
    intro evs h
    rcases h with ⟨h, -⟩ | ⟨h, -⟩ | ⟨-, h, -⟩ | ⟨-, -, rfl⟩
    · exact absurd h (by decide)
    · exact absurd h (by decide)
    · simp [cfg1] at h
    · rfl
  exact missed_of cfg1_wf (by simp [cfg1]) (by decide +kernel) (fun evs h o ho => by rw [k evs h] at ho; cases ho)
    (Or.inr fun evs h o ho => by rw [k evs h] at ho; cases ho)

/-- The loading of the redshift of a line measurement is held to be asked for exactly when there is no redshift solver, that is when it is
never run. -/
theorem C198_lmload_counterexample (c : Cfg) (m : String) (hw : WF c) (hm : m ∈ c.models) (he : stageEnabled c m .lmLoad = true) :
    Missed c m .lmLoad := by
  refine missed_of hw hm he (fun evs h o ho => ?_) (Or.inl (by decide))
  have hz : truthy (zMethod c m) = false := by
    rw [zMethod_truthy]
    simp [stageEnabled] at he
    simp [he.2]
  rcases h with ⟨h, -⟩ | ⟨h, -⟩ | ⟨-, -, o, rfl⟩ | ⟨-, -, rfl⟩
  · rw [hz] at h; cases h
  · rw [hz] at h; cases h
  · simp at ho
  · simp at ho

/-! ## Concrete cases -/

/-- The behaviour of the stages in the examples: those listed fail. -/
def failing (l : List (Stg × Option String)) : Env Nat :=
  ⟨fun s m w => (w + 1, if (s, m) ∈ l then some "E" else none), fun _ => true⟩

/-- What is asked for by the parameters of a spectrum model, as the code reads them: a redshift solver when its method is present and not empty; a
line measurement when it is listed in the stages and has a method; the loading of its redshift when there is moreover no redshift solver; a
reliability when it is listed; a sub-classification for a line model with template ratios. -/
theorem C198_asked (c : Cfg) (m : String) :
    (stageEnabled c m .redshift = true ↔ ∃ x, (c.sec m).zMethod = some x ∧ x ≠ "") ∧
    (stageEnabled c m .lineMeas = true ↔ "lineMeasSolver" ∈ (c.sec m).stages ∧ (c.sec m).lmMethod ≠ none) ∧
    (stageEnabled c m .lmLoad = true ↔ ("lineMeasSolver" ∈ (c.sec m).stages ∧ (c.sec m).lmMethod ≠ none) ∧
      ((c.sec m).zMethod = none ∨ (c.sec m).zMethod = some "")) ∧
    (stageEnabled c m .reliability = true ↔ "reliabilitySolver" ∈ (c.sec m).stages) ∧
    (stageEnabled c m .subClassif = true ↔ (c.sec m).zMethod = some "lineModelSolve" ∧
      ((c.sec m).ratioType = some "tplRatio" ∨ (c.sec m).ratioType = some "tplCorr")) ∧
    ∀ s, s ∈ [Stg.init, .classification, .loadStore] → stageEnabled c m s = false := by
  have hz : ∀ x : String, zMethod c m = some x ↔ (c.sec m).zMethod = some x ∧ x ≠ "" := by
    intro x
    unfold zMethod
    split_ifs with h
    · rw [h]; constructor
      · intro e; cases e
      · rintro ⟨e, h2⟩; exact absurd (Option.some.inj e).symm h2
    · exact ⟨fun e => ⟨e, fun e2 => h (by rw [e, e2])⟩, fun e => e.1⟩
  have hn : zMethod c m = none ↔ ((c.sec m).zMethod = none ∨ (c.sec m).zMethod = some "") := by
    unfold zMethod
    split_ifs with h
    · simp [h]
    · simp [h]
  have hl : (lmMethod c m).isSome = true ↔ "lineMeasSolver" ∈ (c.sec m).stages ∧ (c.sec m).lmMethod ≠ none := by
    unfold lmMethod
    split_ifs with h
    · rw [Option.isSome_iff_ne_none]; exact ⟨fun e => ⟨h, e⟩, fun e => e.2⟩
    · exact ⟨fun e => (by cases e), fun e => absurd e.1 h⟩
  refine ⟨?_, hl, ?_, ?_, ?_, ?_⟩
  · rw [show stageEnabled c m .redshift = (zMethod c m).isSome from rfl, Option.isSome_iff_exists]
    exact ⟨fun ⟨x, h⟩ => ⟨x, (hz x).1 h⟩, fun ⟨x, h⟩ => ⟨x, (hz x).2 h⟩⟩
  · rw [show stageEnabled c m .lmLoad = ((lmMethod c m).isSome && (zMethod c m).isNone) from rfl, Bool.and_eq_true, hl, Option.isNone_iff_eq_none, hn]
  · exact decide_eq_true_iff
  · rw [show stageEnabled c m .subClassif = tplratioNeeded c m from rfl]
    unfold tplratioNeeded
    split_ifs with h
    · rw [Bool.or_eq_true, decide_eq_true_iff, decide_eq_true_iff]
      exact ⟨fun e => ⟨((hz _).1 h).1, e⟩, fun e => e.2⟩
    · exact ⟨fun e => (by cases e), fun e => absurd ((hz _).2 ⟨e.1, by decide⟩) h⟩
  · intro s hs
    simp at hs
    rcases hs with rfl | rfl | rfl <;> rfl

/-- Two models: galaxy with everything, star with template fitting. -/
def cfg2 : Cfg :=
  ⟨["galaxy", "star"], fun m => if m = "galaxy" then ⟨["redshiftSolver", "lineMeasSolver", "reliabilitySolver"], some "lineModelSolve", some "lineMeasSolve", some "tplRatio"⟩
    else ⟨["redshiftSolver"], some "templateFittingSolve", none, none⟩, ["galaxy"], []⟩

theorem cfg2_wf : WF cfg2 := by
  refine ⟨by decide +kernel, ?_⟩
  intro m hm
  simp [cfg2] at hm
  rcases hm with rfl | rfl <;> decide

example : Reachable cfg2 "galaxy" := by constructor <;> decide +kernel

/-- The stages run, and the errors, when the redshift solver of the galaxies fails. -/
example : ((run cfg2 (failing [(.redshift, some "galaxy")]) 0).map fun st => (st.trace.map fun ev => (ev.stg, ev.model),
      [st.errors (some "galaxy") .redshift, st.errors (some "galaxy") .lineMeas, st.errors (some "galaxy") .lmLoad, st.errors (some "star") .redshift])) =
    some ([(.init, none), (.redshift, some "galaxy"), (.redshift, some "star"), (.classification, none), (.loadStore, none)],
      [some (.own "E"), some (.previous .redshift), none, none]) := by decide +kernel

/-- When the sub-classification fails, the following stages of the model are still run. -/
example : ((run cfg2 (failing [(.subClassif, some "galaxy")]) 0).map fun st => st.trace.map fun ev => (ev.stg, ev.model)) =
    some [(.init, none), (.redshift, some "galaxy"), (.subClassif, some "galaxy"), (.reliability, some "galaxy"), (.lmLoad, some "galaxy"),
      (.lineMeas, some "galaxy"), (.redshift, some "star"), (.classification, none), (.loadStore, none)] := by decide +kernel

/-- When all the redshift solvers fail there is no classification. -/
example : ((run cfg2 (failing [(.redshift, some "galaxy"), (.redshift, some "star")]) 0).map fun st => (st.trace.map fun ev => (ev.stg, ev.model),
      st.errors none .classification)) =
    some ([(.init, none), (.redshift, some "galaxy"), (.redshift, some "star"), (.loadStore, none)], some (.own "NO_CLASSIFICATION")) := by
  decide +kernel

/-- The initialisation fails. -/
example : ((run cfg2 (failing [(.init, none)]) 0).map fun st => (st.trace, st.errors (some "galaxy") .lineMeas, st.errors (some "star") .reliability)) =
    some ([⟨.init, none, some "E"⟩], some (.previous .init), none) := by decide +kernel

/-- Two models: stars with a redshift solver, galaxies with a line measurement on a catalogue only. -/
def cfg3 : Cfg :=
  ⟨["galaxy", "star"], fun m => if m = "galaxy" then ⟨["lineMeasSolver"], none, some "lineMeasSolve", none⟩
    else ⟨["redshiftSolver"], some "templateFittingSolve", none, none⟩, [], ["galaxy"]⟩

/-- The only redshift solver failed, but the classification is run: a model without redshift solver counts as one that did not fail. -/
theorem C198_classif_counterexample :
    ((run cfg3 (failing [(.redshift, some "star")]) 0).map fun st => (st.trace.map fun ev => (ev.stg, ev.model, ev.err), st.errors none .classification)) =
    some ([(.init, none, none), (.lineMeas, some "galaxy", none), (.redshift, some "star", some "E"), (.classification, none, none),
      (.loadStore, none, none)], none) := by decide +kernel

/-- Two runs which differ on the stars only (`C198_isolated`). -/
example : ∃ st st', run cfg2 (failing []) 0 = some st ∧ run cfg2 (failing [(.redshift, some "star")]) 5 = some st' ∧ InitOk st ∧ InitOk st' ∧
    (st.trace.map fun ev => (ev.stg, ev.model)) = (st'.trace.map fun ev => (ev.stg, ev.model)) ∧ st.trace ≠ st'.trace :=
  ⟨_, _, rfl, rfl, by unfold InitOk; decide +kernel, by unfold InitOk; decide +kernel, by decide +kernel, by decide +kernel⟩

/-- Keys. -/
example : fullName (some "galaxy") .lmLoad = "linemeas_catalog_load_galaxy" ∧ fullName none .init = "init" := by decide +kernel

end ProcFlow
end Amazed
