import Verif.Model.LmParams
import Verif.Props.ProcFlowProps
import Mathlib.Tactic.SplitIfs
import Mathlib.Tactic.Common

/-!
# C201, C202: the parameters of the spectrum being processed
-/

set_option autoImplicit true
set_option linter.unusedVariables false
set_option linter.unusedSimpArgs false
set_option linter.unusedTactic false
set_option linter.unreachableTactic false
set_option linter.unnecessarySeqFocus false
set_option synthInstance.maxSize 1024
namespace Amazed
namespace LmParams

open ProcFlow (Stg Env St)

/-! ## Specification -/

/-- The measurement of model `m` with the parameters `lm` is one with the values of spectrum `s`: those of its row in the catalogue of line
measurements, for a model of the catalogue, else those of the best candidate of its own redshift solver. -/
def Own (c : Cfg) (s : Src) (lsf : Option (String × Option Num)) (m : String) (lm : Lm) : Prop :=
  (m ∈ c.flow.lmCatalog ∧ ∃ z va ve, s.row m = some (z, va, ve) ∧ lm = ⟨some z, some va, some ve⟩) ∨
  (m ∉ c.flow.lmCatalog ∧ ∃ z va ve, s.solve m lsf = .ok ⟨some z, some va, some ve⟩ ∧ lm = ⟨some z, some va, some ve⟩)

/-- The values given by a spectrum are numbers. -/
structure FinSrc (s : Src) : Prop where
  lsf : ∀ p ∈ s.lsfObs, p.2 ≠ none
  row : ∀ m z va ve, s.row m = some (z, va, ve) → z ≠ none ∧ va ≠ none ∧ ve ≠ none
  sol : ∀ m l r, s.solve m l = .ok r → r.z ≠ some none ∧ r.va ≠ some none ∧ r.ve ≠ some none

/-- The parameters of the user have no NaN. -/
def Good (c : Cfg) (p : Par) : Prop :=
  (∀ m ∈ c.sections, (p.sec m).z ≠ some none ∧ (p.sec m).va ≠ some none ∧ (p.sec m).ve ≠ some none) ∧ ∀ n ∈ lsfNames, p.lsf n ≠ some none

/-! ## Statements that may fail -/

theorem next_none {a : S × Option String} {f : S → S × Option String} {s : S} (h : next a f = (s, none)) :
    ∃ t, a = (t, none) ∧ f t = (s, none) := by
  unfold next at h
  obtain ⟨t, o⟩ := a
  cases o with
  | none => exact ⟨t, rfl, h⟩
  | some e => cases h

theorem next_inv {P : S → Prop} {a : S × Option String} {f : S → S × Option String} (ha : P a.1) (hf : ∀ s, P s → P (f s).1) : P (next a f).1 := by
  unfold next
  obtain ⟨t, o⟩ := a
  cases o with
  | none => exact hf t ha
  | some e => exact ha

theorem next_rel {R : S → S → Prop} {a a' : S × Option String} {f f' : S → S × Option String} (ha : R a.1 a'.1) (he : a.2 = a'.2)
    (hf : ∀ s s', R s s' → R (f s).1 (f' s').1 ∧ (f s).2 = (f' s').2) : R (next a f).1 (next a' f').1 ∧ (next a f).2 = (next a' f').2 := by
  obtain ⟨t, o⟩ := a
  obtain ⟨t', o'⟩ := a'
  dsimp only at ha he
  subst he
  cases o with
  | none => exact hf t t' ha
  | some e => exact ⟨ha, rfl⟩

/-! ## The stages of a model -/

theorem step_w (c : ProcFlow.Cfg) (v : Env σ) (g : Stg) (t : St σ) (hm : m ≠ "classification") (hs : t.scope = [(.model, m)]) :
    (ProcFlow.step c v g t).1.w = (v.exec g (some m) t.w).1 ∧ (ProcFlow.step c v g t).2 = (v.exec g (some m) t.w).2.isSome ∧
    (ProcFlow.step c v g t).1.scope = [(.model, m)] := by
  have e : ProcFlow.scopeModel (t.scope ++ [(.stage, g.name)]) = some m := by rw [hs]; exact ProcFlow.scopeModel_in hm _
  refine ⟨?_, ?_, hs⟩
  · show (v.exec g (ProcFlow.scopeModel (t.scope ++ [(.stage, g.name)])) t.w).1 = _
    rw [e]
  · show (v.exec g (ProcFlow.scopeModel (t.scope ++ [(.stage, g.name)])) t.w).2.isSome = _
    rw [e]

/-- A property of the process kept by every stage holds after a spectrum. -/
theorem step_inv (c : ProcFlow.Cfg) (v : Env σ) {P : σ → Prop} (h : ∀ g m w, P w → P (v.exec g m w).1) (g : Stg) (t : St σ) (ht : P t.w) :
    P (ProcFlow.step c v g t).1.w := h _ _ _ ht

theorem chain_inv (c : ProcFlow.Cfg) (v : Env σ) {P : σ → Prop} (h : ∀ g m w, P w → P (v.exec g m w).1) (m : String) (t : St σ) (ht : P t.w) :
    P (ProcFlow.chain c v m t).w := by
  have hlm : ∀ t, P t.w → P (ProcFlow.chainLm c v m t).w := by
    intro t ht
    unfold ProcFlow.chainLm
    split_ifs
    · exact step_inv c v h _ _ ht
    · exact step_inv c v h _ _ (step_inv c v h _ _ ht)
    · exact ht
  have hrel : ∀ t, P t.w → P (ProcFlow.chainRel c v m t).w := by
    intro t ht
    unfold ProcFlow.chainRel
    split_ifs
    · exact step_inv c v h _ _ ht
    · exact ht
  have hsub : ∀ t, P t.w → P (ProcFlow.chainSub c v m t).w := by
    intro t ht
    unfold ProcFlow.chainSub
    split_ifs
    · exact step_inv c v h _ _ ht
    · exact ht
  unfold ProcFlow.chain
  split_ifs
  · exact step_inv c v h _ _ ht
  · exact hlm _ (hrel _ (hsub _ (step_inv c v h _ _ ht)))
  · exact step_inv c v h _ _ ht
  · exact ht

theorem processAll_inv (c : ProcFlow.Cfg) (v : Env σ) {P : σ → Prop} (h : ∀ g m w, P w → P (v.exec g m w).1) (l : List String) (t : St σ) (ht : P t.w) :
    P (ProcFlow.processAll c v l t).w := by
  induction l generalizing t with
  | nil => exact ht
  | cons m r ih =>
    refine ih _ ?_
    exact chain_inv c v h m _ ht

theorem classify_inv (c : ProcFlow.Cfg) (v : Env σ) {P : σ → Prop} (h : ∀ g m w, P w → P (v.exec g m w).1) (t : St σ) (ht : P t.w) :
    P (ProcFlow.classify c v t).w := by
  unfold ProcFlow.classify
  split_ifs
  · exact ht
  · exact step_inv c v h _ { t with scope := t.scope ++ [(.model, "classification")] } ht

theorem run_inv (c : ProcFlow.Cfg) (v : Env σ) {P : σ → Prop} (h : ∀ g m w, P w → P (v.exec g m w).1) (w : σ) (hw : P w) (st : St σ)
    (hr : ProcFlow.run c v w = some st) : P st.w := by
  unfold ProcFlow.run at hr
  have hi : P (ProcFlow.initialise c v ⟨w, [], fun _ _ => none, []⟩).1.w := h _ _ _ hw
  dsimp only at hr
  split_ifs at hr
  · cases hr; exact hi
  · cases hr
    unfold ProcFlow.runModels
    refine step_inv c v h _ _ ?_
    have := processAll_inv c v h c.models _ hi
    split_ifs
    · exact classify_inv c v h _ this
    · exact this

/-! ## The setters -/

theorem setZ_ok {c : Cfg} {m : String} {x : Num} {p q : Par} (h : setZ c m x p = (q, none)) :
    q = { p with sec := upd p.sec m { p.sec m with z := some x } } := by
  unfold setZ at h
  split_ifs at h
  · cases h; rfl
  · cases h

theorem setVa_ok {c : Cfg} {m : String} {x : Num} {p q : Par} (h : setVa c m x p = (q, none)) :
    q = { p with sec := upd p.sec m { p.sec m with va := some x } } := by
  unfold setVa at h
  split_ifs at h
  · cases h; rfl
  · cases h

theorem setVe_ok {c : Cfg} {m : String} {x : Num} {p q : Par} (h : setVe c m x p = (q, none)) :
    q = { p with sec := upd p.sec m { p.sec m with ve := some x } } := by
  unfold setVe at h
  split_ifs at h
  · cases h; rfl
  · cases h

theorem upd_same (f : String → A) (k : String) (v : A) : upd f k v k = v := if_pos rfl
theorem upd_other (f : String → A) {k x : String} (v : A) (h : x ≠ k) : upd f k v x = f x := if_neg h

/-- The three setters in a row. -/
theorem set_all {c : Cfg} {m : String} {z va ve : Num} {p q : Par}
    (h : next (next (setZ c m z p) (setVa c m va)) (setVe c m ve) = (q, none)) :
    q.sec m = ⟨some z, some va, some ve⟩ ∧ ∀ x, x ≠ m → q.sec x = p.sec x := by
  obtain ⟨p2, h, h3⟩ := next_none h
  obtain ⟨p1, h1, h2⟩ := next_none h
  rw [setVe_ok h3, setVa_ok h2, setZ_ok h1]
  dsimp only
  refine ⟨by simp only [upd_same], fun x hx => by simp only [upd_other _ _ hx]⟩

theorem fromCatalog_ok (c : Cfg) (row : String → Option (Num × Num × Num)) (l : List String) (hl : l.Nodup) (p q : Par)
    (h : fromCatalog c row l p = (q, none)) :
    (∀ m ∈ l, ∃ z va ve, row m = some (z, va, ve) ∧ q.sec m = ⟨some z, some va, some ve⟩) ∧ ∀ m, m ∉ l → q.sec m = p.sec m := by
  induction l generalizing p with
  | nil => cases h; exact ⟨by simp, fun _ _ => rfl⟩
  | cons m r ih =>
    obtain ⟨hm, hl⟩ := List.nodup_cons.1 hl
    unfold fromCatalog at h
    cases hr : row m with
    | none => rw [hr] at h; cases h
    | some x =>
      rw [hr] at h
      dsimp only at h
      obtain ⟨t, h1, h2⟩ := next_none h
      obtain ⟨a, b⟩ := ih hl t h2
      obtain ⟨a1, b1⟩ := set_all h1
      refine ⟨fun k hk => ?_, fun k hk => ?_⟩
      · rcases List.mem_cons.1 hk with rfl | hk
        · exact ⟨x.1, x.2.1, x.2.2, hr, by rw [b k hm, a1]⟩
        · exact a k hk
      · simp only [List.mem_cons, not_or] at hk
        rw [b k hk.2, b1 k hk.1]

theorem fromResults_ok (c : Cfg) (m : String) (r : Sol) (p q : Par) (h : fromResults c m r p = (q, none)) :
    ∃ z va ve, r = ⟨some z, some va, some ve⟩ ∧ q.sec m = ⟨some z, some va, some ve⟩ ∧ ∀ x, x ≠ m → q.sec x = p.sec x := by
  obtain ⟨rz, rva, rve⟩ := r
  unfold fromResults at h
  obtain ⟨p1, h1, h2⟩ := next_none h
  cases rz with
  | none => cases h1
  | some z => cases rva with
    | none => cases h2
    | some va => cases rve with
      | none => cases h2
      | some ve =>
        refine ⟨z, va, ve, rfl, ?_⟩
        refine set_all (c := c) (z := z) (va := va) (ve := ve) (p := p) ?_
        have h1 : setZ c m z p = (p1, none) := h1
        have h2 : next (setVa c m va p1) (setVe c m ve) = (q, none) := h2
        rw [h1]
        exact h2

theorem fromResults_other (c : Cfg) (m : String) (r : Sol) (p : Par) : ∀ x, x ≠ m → (fromResults c m r p).1.sec x = p.sec x := by
  have hz : ∀ v p x, x ≠ m → (setZ c m v p).1.sec x = p.sec x := by
    intro v p x hx; unfold setZ; split_ifs
    · exact upd_other _ _ hx
    · rfl
  have hva : ∀ v p x, x ≠ m → (setVa c m v p).1.sec x = p.sec x := by
    intro v p x hx; unfold setVa; split_ifs
    · exact upd_other _ _ hx
    · rfl
  have hve : ∀ v p x, x ≠ m → (setVe c m v p).1.sec x = p.sec x := by
    intro v p x hx; unfold setVe; split_ifs
    · exact upd_other _ _ hx
    · rfl
  intro x hx
  unfold fromResults
  refine next_inv (P := fun q : Par => q.sec x = p.sec x) ?_ ?_
  · unfold attr; cases r.z with
    | none => rfl
    | some v => exact hz v p x hx
  · intro q hq
    unfold attr
    cases r.va with
    | none => exact hq
    | some va => cases r.ve with
      | none => exact hq
      | some ve => exact next_inv (P := fun q : Par => q.sec x = p.sec x) ((hva va q x hx).trans hq) fun s hs => (hve ve s x hx).trans hs

/-! ## The values read by the measurements -/

/-- What holds between the stages of a spectrum, once it is initialised. -/
structure Inv (c : Cfg) (s : Src) (f : Option (String × Option Num)) (w : W) : Prop where
  lsf : w.lsf = f
  cat : ∀ m ∈ c.flow.lmCatalog, ∃ z va ve, s.row m = some (z, va, ve) ∧ w.par.sec m = ⟨some z, some va, some ve⟩ ∧
    ∃ p, w.store = some p ∧ p.sec m = ⟨some z, some va, some ve⟩
  res : ∀ m r, w.res m = some r → s.solve m f = .ok r
  log : ∀ e ∈ w.log, Own c s f e.1 e.2

theorem loadStore_ok {c : Cfg} {w w' : W} (h : loadStore c w = (w', none)) : w' = { w with store := some w.par } := by
  unfold loadStore at h
  split_ifs at h
  · cases h; rfl
  · cases h

theorem lsfStep_keeps (c : Cfg) (s : Src) (w : W) : (lsfStep c s w).1.res = w.res ∧ (lsfStep c s w).1.log = w.log := by
  have hl : ∀ w : W, (loadStore c w).1.res = w.res ∧ (loadStore c w).1.log = w.log := by
    intro w; unfold loadStore; split_ifs <;> exact ⟨rfl, rfl⟩
  unfold lsfStep
  split_ifs
  · match s.lsfObs with
    | [] => exact ⟨rfl, rfl⟩
    | (_, x) :: _ =>
      dsimp only
      match lsfParam s.readerLsf with
      | none => exact ⟨rfl, rfl⟩
      | some n =>
        dsimp only
        exact next_inv (P := fun q : W => q.res = w.res ∧ q.log = w.log) (hl _) fun q hq => hq
  · match s.lsfObs with
    | [] => exact ⟨rfl, rfl⟩
    | (_, x) :: _ => exact ⟨rfl, rfl⟩
  · match lsfParam c.lsfType with
    | none => exact next_inv (P := fun q : W => q.res = w.res ∧ q.log = w.log) (hl _) fun q hq => hq
    | some n => exact next_inv (P := fun q : W => q.res = w.res ∧ q.log = w.log) (hl _) fun q hq => hq
  · exact ⟨rfl, rfl⟩

theorem init_inv (c : Cfg) (s : Src) (w w' : W) (hc : c.flow.lmCatalog.Nodup) (h : initStep c s w = (w', none)) : Inv c s w'.lsf w' := by
  unfold initStep at h
  obtain ⟨w5, h, h6⟩ := next_none h
  obtain ⟨w4, h, h5⟩ := next_none h
  obtain ⟨w3, h, h4⟩ := next_none h
  obtain ⟨w2, h, h3⟩ := next_none h
  obtain ⟨w1, h1, h2⟩ := next_none h
  have e1 : w1 = { w with res := fun _ => none, lsf := none, log := [] } := (Prod.mk.inj h1).1.symm
  have e2 := lsfStep_keeps c s w1
  rw [h2] at e2
  have e3 : w3 = w2 := (Prod.mk.inj h3).1.symm
  have e6 : w' = w5 := (Prod.mk.inj h6).1.symm
  have e5 := loadStore_ok h5
  have e4 : w4 = { w3 with par := (fromCatalog c s.row c.flow.lmCatalog w3.par).1 } := (Prod.mk.inj h4).1.symm
  have e4' : fromCatalog c s.row c.flow.lmCatalog w3.par = (w4.par, none) := by
    rw [e4]; exact Prod.ext rfl (Prod.mk.inj h4).2
  obtain ⟨a, b⟩ := fromCatalog_ok c s.row _ hc _ _ e4'
  have hres : w'.res = fun _ => none := by rw [e6, e5, e4, e3]; show w2.res = _; rw [e2.1, e1]
  have hlog : w'.log = [] := by rw [e6, e5, e4, e3]; show w2.log = _; rw [e2.2, e1]
  refine ⟨rfl, fun m hm => ?_, fun m r hr => ?_, fun e he => ?_⟩
  · obtain ⟨z, va, ve, h1, h2⟩ := a m hm
    exact ⟨z, va, ve, h1, by rw [e6, e5]; exact h2, w4.par, by rw [e6, e5], h2⟩
  · rw [hres] at hr; cases hr
  · rw [hlog] at he; cases he

theorem solve_inv {c : Cfg} {s : Src} {lsf} {w : W} (h : Inv c s lsf w) (m : String) : Inv c s lsf (solveStep s m w).1 := by
  unfold solveStep
  cases hs : s.solve m w.lsf with
  | error e => exact h
  | ok r =>
    refine ⟨h.lsf, h.cat, fun k r' hk => ?_, h.log⟩
    dsimp only at hk
    by_cases e : k = m
    · subst e; rw [upd_same] at hk; cases hk; rw [← h.lsf]; exact hs
    · rw [upd_other _ _ e] at hk; exact h.res k r' hk

theorem load_inv {c : Cfg} {s : Src} {lsf} {w : W} (h : Inv c s lsf w) (m : String) (hm : m ∉ c.flow.lmCatalog) :
    Inv c s lsf (loadStep c m w).1 ∧
    ((loadStep c m w).2 = none → ∃ z va ve, s.solve m lsf = .ok ⟨some z, some va, some ve⟩ ∧
      ∃ p, (loadStep c m w).1.store = some p ∧ p.sec m = ⟨some z, some va, some ve⟩) := by
  unfold loadStep
  cases hr : w.res m with
  | none => exact ⟨h, fun e => by cases e⟩
  | some r =>
    dsimp only
    have h1 : Inv c s lsf (onPar (fromResults c m r) w).1 := by
      refine ⟨h.lsf, fun k hk => ?_, h.res, h.log⟩
      obtain ⟨z, va, ve, a, b, d⟩ := h.cat k hk
      refine ⟨z, va, ve, a, ?_, d⟩
      show (fromResults c m r w.par).1.sec k = _
      rw [fromResults_other c m r w.par k fun e => hm (e ▸ hk), b]
    constructor
    · refine next_inv h1 fun q hq => ?_
      unfold loadStore
      split_ifs
      · refine ⟨hq.lsf, fun k hk => ?_, hq.res, hq.log⟩
        obtain ⟨z, va, ve, a, b, d⟩ := hq.cat k hk
        exact ⟨z, va, ve, a, b, q.par, rfl, b⟩
      · exact hq
    · intro hn
      obtain ⟨t, h2, h3⟩ := next_none (Prod.ext rfl hn : next (onPar (fromResults c m r) w) (loadStore c) = (_, none))
      obtain ⟨z, va, ve, e, f, -⟩ := fromResults_ok c m r w.par t.par (Prod.ext (by rw [← (Prod.mk.inj h2).1]) (Prod.mk.inj h2).2)
      refine ⟨z, va, ve, by rw [← e]; exact h.res m r hr, t.par, ?_, f⟩
      exact congrArg W.store (loadStore_ok h3)

theorem measure_inv {c : Cfg} {s : Src} {lsf} {w : W} (h : Inv c s lsf w) (m : String) (hp : ∀ p, w.store = some p → Own c s lsf m (p.sec m)) :
    Inv c s lsf (measureStep s m w).1 := by
  unfold measureStep
  cases hs : w.store with
  | none => exact h
  | some p =>
    refine ⟨h.lsf, ?_, h.res, fun e he => ?_⟩
    · intro k hk
      obtain ⟨z, va, ve, a, b, q, hq, d⟩ := h.cat k hk
      rw [hs] at hq
      cases hq
      exact ⟨z, va, ve, a, b, p, rfl, d⟩
    · rcases List.mem_append.1 he with he | he
      · exact h.log e he
      · rw [List.mem_singleton.1 he]; exact hp p hs

/-- The environment of a spectrum. -/
abbrev env (c : Cfg) (s : Src) : Env W := ⟨exec c s, fun _ => true⟩

theorem chain_own (c : Cfg) (s : Src) (m : String) (hm : m ≠ "classification") (t : St W) (hs : t.scope = [(.model, m)]) (h : Inv c s lsf t.w) :
    Inv c s lsf (ProcFlow.chain c.flow (env c s) m t).w := by
  have st : ∀ (g : Stg) (t : St W), t.scope = [(.model, m)] → (ProcFlow.step c.flow (env c s) g t).1.w = (exec c s g (some m) t.w).1 ∧
      (ProcFlow.step c.flow (env c s) g t).2 = (exec c s g (some m) t.w).2.isSome ∧ (ProcFlow.step c.flow (env c s) g t).1.scope = [(.model, m)] :=
    fun g t ht => step_w c.flow (env c s) g t hm ht
  have hlm : ∀ t : St W, t.scope = [(.model, m)] → Inv c s lsf t.w → Inv c s lsf (ProcFlow.chainLm c.flow (env c s) m t).w := by
    intro t ht h
    obtain ⟨s1, s2, s3⟩ := st .lmLoad t ht
    have s1 : (ProcFlow.step c.flow (env c s) .lmLoad t).1.w = (loadStep c m t.w).1 := s1
    have s2 : (ProcFlow.step c.flow (env c s) .lmLoad t).2 = (loadStep c m t.w).2.isSome := s2
    unfold ProcFlow.chainLm
    split_ifs with h1 h2
    · simp only [Bool.and_eq_true, Bool.not_eq_true', decide_eq_false_iff_not] at h1
      rw [s1]; exact (load_inv h m h1.2).1
    · simp only [Bool.and_eq_true, Bool.not_eq_true', decide_eq_false_iff_not] at h1
      obtain ⟨a, b⟩ := load_inv h m h1.2
      rw [s2, Bool.not_eq_true, Option.isSome_eq_false_iff, Option.isNone_iff_eq_none] at h2
      obtain ⟨z, va, ve, hz, p, hp, hsec⟩ := b h2
      rw [(st .lineMeas _ s3).1]
      show Inv c s lsf (measureStep s m _).1
      refine measure_inv (by rw [s1]; exact a) m fun q hq => ?_
      rw [s1, hp] at hq
      cases hq
      exact Or.inr ⟨h1.2, z, va, ve, hz, hsec⟩
    · exact h
  have hrel : ∀ t : St W, t.scope = [(.model, m)] → Inv c s lsf t.w →
      (ProcFlow.chainRel c.flow (env c s) m t).scope = [(.model, m)] ∧ Inv c s lsf (ProcFlow.chainRel c.flow (env c s) m t).w := by
    intro t ht h
    unfold ProcFlow.chainRel
    split_ifs
    · exact ⟨(st _ t ht).2.2, by rw [(st _ t ht).1]; exact h⟩
    · exact ⟨ht, h⟩
  have hsub : ∀ t : St W, t.scope = [(.model, m)] → Inv c s lsf t.w →
      (ProcFlow.chainSub c.flow (env c s) m t).scope = [(.model, m)] ∧ Inv c s lsf (ProcFlow.chainSub c.flow (env c s) m t).w := by
    intro t ht h
    unfold ProcFlow.chainSub
    split_ifs
    · exact ⟨(st _ t ht).2.2, by rw [(st _ t ht).1]; exact h⟩
    · exact ⟨ht, h⟩
  have hz : Inv c s lsf (ProcFlow.step c.flow (env c s) .redshift t).1.w := by
    rw [(st .redshift t hs).1]; exact solve_inv h m
  unfold ProcFlow.chain
  split_ifs with h1 h2 h3
  · exact hz
  · obtain ⟨a1, b1⟩ := hsub _ (st .redshift t hs).2.2 hz
    obtain ⟨a2, b2⟩ := hrel _ a1 b1
    exact hlm _ a2 b2
  · rw [(st .lineMeas t hs).1]
    simp only [Bool.and_eq_true, decide_eq_true_eq] at h3
    show Inv c s lsf (measureStep s m _).1
    refine measure_inv h m fun q hq => ?_
    obtain ⟨z, va, ve, a, b, p, hp, d⟩ := h.cat m h3.2
    rw [hp] at hq
    cases hq
    exact Or.inl ⟨h3.2, z, va, ve, a, d⟩
  · exact h

theorem processAll_own (c : Cfg) (s : Src) (l : List String) (hl : ∀ m ∈ l, m ≠ "classification") (t : St W) (hs : t.scope = []) (h : Inv c s lsf t.w) :
    (ProcFlow.processAll c.flow (env c s) l t).scope = [] ∧ Inv c s lsf (ProcFlow.processAll c.flow (env c s) l t).w := by
  induction l generalizing t with
  | nil => exact ⟨hs, h⟩
  | cons m r ih =>
    have hm := hl m (by simp)
    refine ih (fun k hk => hl k (by simp [hk])) _ ?_ ?_
    · obtain ⟨evs, ha, -⟩ := ProcFlow.processModel_after c.flow (env c s) t hm hs
      rw [ha.1]; exact hs
    · exact chain_own c s m hm _ (by rw [hs]; rfl) h

theorem scopeModel_nil : ProcFlow.scopeModel [] = none := rfl

theorem init_log (c : Cfg) (s : Src) (w : W) : (initStep c s w).1.log = [] := by
  unfold initStep
  refine next_inv (P := fun q : W => q.log = []) (next_inv (P := fun q : W => q.log = []) (next_inv (P := fun q : W => q.log = [])
    (next_inv (P := fun q : W => q.log = []) (next_inv (P := fun q : W => q.log = []) rfl fun q hq => ?_) fun q hq => hq) fun q hq => hq)
    fun q hq => ?_) fun q hq => hq
  · rw [(lsfStep_keeps c s q).2]; exact hq
  · unfold loadStore; split_ifs <;> exact hq

/-- The state after the models of a spectrum whose initialisation succeeded. -/
theorem run_cases (c : Cfg) (s : Src) (w : W) (st : St W) (h : run c s w = some st) :
    ((initStep c s w).2 ≠ none ∧ st.w = (initStep c s w).1) ∨
    ((initStep c s w).2 = none ∧
      st = ProcFlow.runModels c.flow (env c s) (ProcFlow.initialise c.flow (env c s) ⟨w, [], fun _ _ => none, []⟩).1) := by
  unfold run ProcFlow.run at h
  dsimp only at h
  have e : (ProcFlow.initialise c.flow ⟨exec c s, fun _ => true⟩ ⟨w, [], fun _ _ => none, []⟩).2 = (initStep c s w).2.isSome := rfl
  rw [e] at h
  cases hi : (initStep c s w).2 with
  | none =>
    rw [hi] at h
    right
    exact ⟨rfl, (Option.some.inj h).symm⟩
  | some x =>
    rw [hi] at h
    left
    refine ⟨by simp, ?_⟩
    rw [← Option.some.inj h]
    rfl

theorem exec_none (c : Cfg) (s : Src) (g : Stg) (hg : g ≠ .init) (w : W) : exec c s g none w = (w, s.other g none) := by
  cases g <;> first | exact absurd rfl hg | rfl

theorem classify_w (c : Cfg) (s : Src) (t : St W) (hs : t.scope = []) :
    (ProcFlow.classify c.flow (env c s) t).w = t.w ∧ (ProcFlow.classify c.flow (env c s) t).scope = [] := by
  unfold ProcFlow.classify
  dsimp only
  split_ifs
  · exact ⟨rfl, hs⟩
  · constructor
    · show (exec c s .classification (ProcFlow.scopeModel (t.scope ++ [(.model, "classification")] ++ [(.stage, Stg.classification.name)])) t.w).1 = t.w
      rw [hs, show ProcFlow.scopeModel ([] ++ [(.model, "classification")] ++ [(.stage, Stg.classification.name)]) = none from by decide +kernel,
        exec_none c s _ (by decide)]
    · show (t.scope ++ [(ProcFlow.ScT.model, "classification")]).dropLast = []
      rw [hs]; rfl

theorem load_w (c : Cfg) (s : Src) (t : St W) (hs : t.scope = []) : (ProcFlow.step c.flow (env c s) .loadStore t).1.w = t.w := by
  show (exec c s .loadStore (ProcFlow.scopeModel (t.scope ++ [(.stage, Stg.loadStore.name)])) t.w).1 = t.w
  rw [hs, show ProcFlow.scopeModel ([] ++ [(.stage, Stg.loadStore.name)]) = none from by decide +kernel, exec_none c s _ (by decide)]

/-- Every line measurement done for a spectrum uses the redshift and the velocities of this spectrum, whatever the state left by the spectra
processed before. -/
theorem C201_own (c : Cfg) (s : Src) (w : W) (st : St W) (hw : ProcFlow.WF c.flow) (hc : c.flow.lmCatalog.Nodup) (h : run c s w = some st) :
    ∀ e ∈ st.w.log, Own c s st.w.lsf e.1 e.2 := by
  rcases run_cases c s w st h with ⟨-, e⟩ | ⟨hi, rfl⟩
  · rw [e, init_log]; simp
  · have h0 : Inv c s (initStep c s w).1.lsf (initStep c s w).1 := init_inv c s w _ hc (Prod.ext rfl hi)
    obtain ⟨a, b⟩ := processAll_own c s c.flow.models (fun m hm => (hw.2 m hm).2)
      (ProcFlow.initialise c.flow (env c s) ⟨w, [], fun _ _ => none, []⟩).1 rfl h0
    have key : Inv c s (initStep c s w).1.lsf (ProcFlow.runModels c.flow (env c s)
        (ProcFlow.initialise c.flow (env c s) ⟨w, [], fun _ _ => none, []⟩).1).w := by
      unfold ProcFlow.runModels
      dsimp only
      split_ifs
      · obtain ⟨e1, e2⟩ := classify_w c s _ a
        rw [load_w c s _ e2, e1]; exact b
      · rw [load_w c s _ a]; exact b
    rw [key.lsf]
    exact key.log

/-! ## Independence from the spectra processed before -/

/-- Parameters which cannot be told apart by a spectrum that has not loaded its own values. -/
structure RelP (c : Cfg) (p p' : Par) : Prop where
  z : ∀ m ∈ c.sections, fin (p.sec m).z = fin (p'.sec m).z
  va : ∀ m ∈ c.sections, fin (p.sec m).va = fin (p'.sec m).va
  ve : ∀ m ∈ c.sections, fin (p.sec m).ve = fin (p'.sec m).ve
  lsf : ∀ n ∈ lsfNames, fin (p.lsf n) = fin (p'.lsf n)
  arg : c.lsfType ≠ "fromSpectrumData" → lsfArg c.lsfType p = lsfArg c.lsfType p'

structure R0 (c : Cfg) (w w' : W) : Prop where
  par : RelP c w.par w'.par
  lsf : w.lsf = w'.lsf
  res : w.res = w'.res
  log : w.log = w'.log

theorem setZ_rel {c : Cfg} {p p' : Par} (h : RelP c p p') (m : String) (x : Num) :
    RelP c (setZ c m x p).1 (setZ c m x p').1 ∧ (setZ c m x p).2 = (setZ c m x p').2 := by
  unfold setZ
  split_ifs with hm
  · refine ⟨⟨fun k hk => ?_, fun k hk => ?_, fun k hk => ?_, h.lsf, h.arg⟩, rfl⟩
    all_goals dsimp only; unfold upd; split_ifs
    · rfl
    · exact h.z k hk
    · exact h.va m hm
    · exact h.va k hk
    · exact h.ve m hm
    · exact h.ve k hk
  · exact ⟨h, rfl⟩

theorem setVa_rel {c : Cfg} {p p' : Par} (h : RelP c p p') (m : String) (x : Num) :
    RelP c (setVa c m x p).1 (setVa c m x p').1 ∧ (setVa c m x p).2 = (setVa c m x p').2 := by
  unfold setVa
  split_ifs with hm
  · refine ⟨⟨fun k hk => ?_, fun k hk => ?_, fun k hk => ?_, h.lsf, h.arg⟩, rfl⟩
    all_goals dsimp only; unfold upd; split_ifs
    · exact h.z m hm.1
    · exact h.z k hk
    · rfl
    · exact h.va k hk
    · exact h.ve m hm.1
    · exact h.ve k hk
  · exact ⟨h, rfl⟩

theorem setVe_rel {c : Cfg} {p p' : Par} (h : RelP c p p') (m : String) (x : Num) :
    RelP c (setVe c m x p).1 (setVe c m x p').1 ∧ (setVe c m x p).2 = (setVe c m x p').2 := by
  unfold setVe
  split_ifs with hm
  · refine ⟨⟨fun k hk => ?_, fun k hk => ?_, fun k hk => ?_, h.lsf, h.arg⟩, rfl⟩
    all_goals dsimp only; unfold upd; split_ifs
    · exact h.z m hm.1
    · exact h.z k hk
    · exact h.va m hm.1
    · exact h.va k hk
    · rfl
    · exact h.ve k hk
  · exact ⟨h, rfl⟩

theorem fromCatalog_rel {c : Cfg} (row : String → Option (Num × Num × Num)) (l : List String) {p p' : Par} (h : RelP c p p') :
    RelP c (fromCatalog c row l p).1 (fromCatalog c row l p').1 ∧ (fromCatalog c row l p).2 = (fromCatalog c row l p').2 := by
  induction l generalizing p p' with
  | nil => exact ⟨h, rfl⟩
  | cons m r ih =>
    unfold fromCatalog
    cases row m with
    | none => exact ⟨h, rfl⟩
    | some x =>
      dsimp only
      have h1 := setZ_rel h m x.1
      have h2 := next_rel (R := RelP c) h1.1 h1.2 (f := setVa c m x.2.1) (f' := setVa c m x.2.1) fun s s' hs => setVa_rel hs m _
      have h3 := next_rel (R := RelP c) h2.1 h2.2 (f := setVe c m x.2.2) (f' := setVe c m x.2.2) fun s s' hs => setVe_rel hs m _
      exact next_rel (R := RelP c) h3.1 h3.2 fun s s' hs => ih hs

theorem fromResults_rel {c : Cfg} (m : String) (r : Sol) {p p' : Par} (h : RelP c p p') :
    RelP c (fromResults c m r p).1 (fromResults c m r p').1 ∧ (fromResults c m r p).2 = (fromResults c m r p').2 := by
  unfold fromResults attr
  have h1 : RelP c (match r.z with | none => (p, some "PYTHON_API_ERROR") | some v => setZ c m v p).1
      (match r.z with | none => (p', some "PYTHON_API_ERROR") | some v => setZ c m v p').1 ∧
      (match r.z with | none => (p, some "PYTHON_API_ERROR") | some v => setZ c m v p).2 =
      (match r.z with | none => (p', some "PYTHON_API_ERROR") | some v => setZ c m v p').2 := by
    cases r.z with
    | none => exact ⟨h, rfl⟩
    | some v => exact setZ_rel h m v
  refine next_rel (R := RelP c) h1.1 h1.2 fun q q' hq => ?_
  cases r.va with
  | none => exact ⟨hq, rfl⟩
  | some va => cases r.ve with
    | none => exact ⟨hq, rfl⟩
    | some ve =>
      have h2 := setVa_rel hq m va
      exact next_rel (R := RelP c) h2.1 h2.2 fun s s' hs => setVe_rel hs m ve

theorem finite_rel {c : Cfg} {p p' : Par} (h : RelP c p p') : finite c p = finite c p' := by
  rw [Bool.eq_iff_iff]
  unfold finite
  simp only [Bool.and_eq_true, List.all_eq_true]
  constructor
  · rintro ⟨a, b⟩
    refine ⟨fun m hm => ?_, fun n hn => by rw [← h.lsf n hn]; exact b n hn⟩
    rw [← h.z m hm, ← h.va m hm, ← h.ve m hm]; exact a m hm
  · rintro ⟨a, b⟩
    refine ⟨fun m hm => ?_, fun n hn => by rw [h.lsf n hn]; exact b n hn⟩
    rw [h.z m hm, h.va m hm, h.ve m hm]; exact a m hm

theorem loadStore_rel {c : Cfg} {w w' : W} (h : R0 c w w') :
    R0 c (loadStore c w).1 (loadStore c w').1 ∧ (loadStore c w).2 = (loadStore c w').2 := by
  unfold loadStore
  rw [← finite_rel h.par]
  split_ifs
  · exact ⟨⟨h.par, h.lsf, h.res, h.log⟩, rfl⟩
  · exact ⟨h, rfl⟩

theorem onPar_rel {c : Cfg} {f : Par → Par × Option String} (hf : ∀ p p', RelP c p p' → RelP c (f p).1 (f p').1 ∧ (f p).2 = (f p').2)
    {w w' : W} (h : R0 c w w') : R0 c (onPar f w).1 (onPar f w').1 ∧ (onPar f w).2 = (onPar f w').2 :=
  ⟨⟨(hf _ _ h.par).1, h.lsf, h.res, h.log⟩, (hf _ _ h.par).2⟩

theorem lsfParam_mem {t n : String} (h : lsfParam t = some n) : n ∈ lsfNames := by
  unfold lsfParam at h
  split_ifs at h <;> first | (cases h; decide +kernel) | cases h

theorem lsfStep_rel {c : Cfg} {s : Src} {w w' : W} (h : R0 c w w') :
    R0 c (lsfStep c s w).1 (lsfStep c s w').1 ∧ (lsfStep c s w).2 = (lsfStep c s w').2 := by
  unfold lsfStep
  by_cases h1 : c.lsfType = "fromSpectrumData"
  · rw [if_pos h1, if_pos h1]
    match s.lsfObs with
    | [] => exact ⟨h, rfl⟩
    | (_, x) :: _ =>
      dsimp only
      by_cases h2 : s.readerLsf ≠ "gaussianVariableWidth"
      · rw [if_pos h2, if_pos h2]
        cases hp : lsfParam s.readerLsf with
        | none => exact ⟨h, rfl⟩
        | some n =>
          dsimp only
          have hu : R0 c { w with par := { w.par with lsf := upd w.par.lsf n (some x) } } { w' with par := { w'.par with lsf := upd w'.par.lsf n (some x) } } := by
            refine ⟨⟨h.par.z, h.par.va, h.par.ve, fun k hk => ?_, fun e => absurd h1 e⟩, h.lsf, h.res, h.log⟩
            dsimp only
            unfold upd
            split_ifs
            · rfl
            · exact h.par.lsf k hk
          have ea : ∀ q : Par, (∃ p : Par, q.lsf = upd p.lsf n (some x)) → lsfArg s.readerLsf q = if n = "" then none else some x := by
            rintro q ⟨p, hq⟩
            unfold lsfArg
            rw [hp]
            split
            · rename_i e; cases e; rfl
            · rename_i k hk e
              cases e
              rw [if_neg (fun e => hk (by rw [e])), hq, upd_same]
            · rename_i e; cases e
          unfold loadStore
          rw [← finite_rel hu.par]
          split_ifs with hf
          · refine ⟨⟨hu.par, ?_, h.res, h.log⟩, rfl⟩
            show some (s.readerLsf, lsfArg s.readerLsf _) = some (s.readerLsf, lsfArg s.readerLsf _)
            rw [ea _ ⟨w.par, rfl⟩, ea _ ⟨w'.par, rfl⟩]
          · exact ⟨hu, rfl⟩
      · rw [if_neg h2, if_neg h2]
        exact ⟨⟨h.par, rfl, h.res, h.log⟩, rfl⟩
  · rw [if_neg h1, if_neg h1]
    by_cases h2 : c.lsfType ≠ "gaussianVariableWidth"
    · rw [if_pos h2, if_pos h2]
      have hl := loadStore_rel h
      cases lsfParam c.lsfType with
      | none => exact next_rel (R := R0 c) hl.1 hl.2 fun q q' hq => ⟨hq, rfl⟩
      | some n =>
        refine next_rel (R := R0 c) hl.1 hl.2 fun q q' hq => ⟨⟨hq.par, ?_, hq.res, hq.log⟩, rfl⟩
        dsimp only
        rw [hq.par.arg h1]
    · rw [if_neg h2, if_neg h2]
      exact ⟨⟨h.par, rfl, h.res, h.log⟩, rfl⟩

theorem init_rel {c : Cfg} {s : Src} {w w' : W} (h : RelP c w.par w'.par) :
    R0 c (initStep c s w).1 (initStep c s w').1 ∧ (initStep c s w).2 = (initStep c s w').2 := by
  unfold initStep
  have hf : ∀ (e : Option String) (q q' : W), R0 c q q' → R0 c (fails e q).1 (fails e q').1 ∧ (fails e q).2 = (fails e q').2 := fun e q q' hq => ⟨hq, rfl⟩
  have h0 : R0 c { w with res := fun _ => none, lsf := none, log := [] } { w' with res := fun _ => none, lsf := none, log := [] } := ⟨h, rfl, rfl, rfl⟩
  have h1 := hf s.pre _ _ h0
  have h2 := next_rel (R := R0 c) h1.1 h1.2 (f := lsfStep c s) (f' := lsfStep c s) fun q q' hq => lsfStep_rel hq
  have h3 := next_rel (R := R0 c) h2.1 h2.2 (f := fails s.post) (f' := fails s.post) (hf _)
  have h4 := next_rel (R := R0 c) h3.1 h3.2 (f := onPar (fromCatalog c s.row c.flow.lmCatalog)) (f' := onPar (fromCatalog c s.row c.flow.lmCatalog))
    fun q q' hq => onPar_rel (fun p p' hp => fromCatalog_rel _ _ hp) hq
  have h5 := next_rel (R := R0 c) h4.1 h4.2 (f := loadStore c) (f' := loadStore c) fun q q' hq => loadStore_rel hq
  exact next_rel (R := R0 c) h5.1 h5.2 (hf _)

theorem solve_rel {c : Cfg} {s : Src} {w w' : W} (h : R0 c w w') (m : String) :
    R0 c (solveStep s m w).1 (solveStep s m w').1 ∧ (solveStep s m w).2 = (solveStep s m w').2 := by
  unfold solveStep
  rw [← h.lsf]
  cases s.solve m w.lsf with
  | error e => exact ⟨h, rfl⟩
  | ok r => exact ⟨⟨h.par, rfl, by dsimp only; rw [h.res], h.log⟩, rfl⟩

theorem load_rel {c : Cfg} {w w' : W} (h : R0 c w w') (m : String) :
    R0 c (loadStep c m w).1 (loadStep c m w').1 ∧ (loadStep c m w).2 = (loadStep c m w').2 := by
  unfold loadStep
  rw [← h.res]
  cases w.res m with
  | none => exact ⟨h, rfl⟩
  | some r =>
    dsimp only
    have h1 := onPar_rel (c := c) (f := fromResults c m r) (fun p p' hp => fromResults_rel m r hp) h
    exact next_rel (R := R0 c) h1.1 h1.2 fun q q' hq => loadStore_rel hq

theorem measure_rel {c : Cfg} {s : Src} {w w' : W} (h : R0 c w w') (m : String) (p p' : Par) (hp : w.store = some p) (hp' : w'.store = some p')
    (e : p.sec m = p'.sec m) : R0 c (measureStep s m w).1 (measureStep s m w').1 ∧ (measureStep s m w).2 = (measureStep s m w').2 := by
  unfold measureStep
  rw [hp, hp']
  dsimp only
  rw [e]
  exact ⟨⟨h.par, h.lsf, h.res, by rw [h.log]⟩, rfl⟩

/-- The same observable state, and related parameters. -/
structure SR (c : Cfg) (s : Src) (f : Option (String × Option Num)) (sc : List (ProcFlow.ScT × String)) (t t' : St W) : Prop where
  scope : t.scope = sc
  scope' : t'.scope = sc
  errors : t.errors = t'.errors
  trace : t.trace = t'.trace
  rel : R0 c t.w t'.w
  inv : Inv c s f t.w
  inv' : Inv c s f t'.w

theorem step_sr {c : Cfg} {s : Src} {f} {sc} {t t' : St W} (h : SR c s f sc t t') (g : Stg) (o : Option String)
    (ho : ProcFlow.scopeModel (sc ++ [(.stage, g.name)]) = o)
    (hr : R0 c (exec c s g o t.w).1 (exec c s g o t'.w).1) (he : (exec c s g o t.w).2 = (exec c s g o t'.w).2)
    (hi : Inv c s f (exec c s g o t.w).1) (hi' : Inv c s f (exec c s g o t'.w).1) :
    SR c s f sc (ProcFlow.step c.flow (env c s) g t).1 (ProcFlow.step c.flow (env c s) g t').1 ∧
    (ProcFlow.step c.flow (env c s) g t).2 = (ProcFlow.step c.flow (env c s) g t').2 := by
  unfold ProcFlow.step
  dsimp only
  rw [h.scope, h.scope', ho]
  show SR c s f sc ⟨(exec c s g o t.w).1, _, _, _⟩ ⟨(exec c s g o t'.w).1, _, _, _⟩ ∧ (exec c s g o t.w).2.isSome = (exec c s g o t'.w).2.isSome
  refine ⟨⟨rfl, rfl, ?_, ?_, hr, hi, hi'⟩, by rw [he]⟩
  · dsimp only
    show (match (exec c s g o t.w).2 with | none => t.errors | some e => _) = (match (exec c s g o t'.w).2 with | none => t'.errors | some e => _)
    rw [he, h.errors]
  · dsimp only
    show t.trace ++ [⟨g, o, (exec c s g o t.w).2⟩] = t'.trace ++ [⟨g, o, (exec c s g o t'.w).2⟩]
    rw [he, h.trace]

/-- A stage that is not one of those modelled. -/
theorem step_other {c : Cfg} {s : Src} {f} {sc} {t t' : St W} (h : SR c s f sc t t') (g : Stg)
    (hx : ∀ w o, ProcFlow.scopeModel (sc ++ [(.stage, g.name)]) = o → exec c s g o w = (w, s.other g o)) :
    SR c s f sc (ProcFlow.step c.flow (env c s) g t).1 (ProcFlow.step c.flow (env c s) g t').1 ∧
    (ProcFlow.step c.flow (env c s) g t).2 = (ProcFlow.step c.flow (env c s) g t').2 := by
  refine step_sr h g _ rfl ?_ ?_ ?_ ?_ <;> rw [hx _ _ rfl]
  · rw [hx _ _ rfl]; exact h.rel
  · rw [hx _ _ rfl]
  · exact h.inv
  · exact h.inv'

theorem chain_sr {c : Cfg} {s : Src} {f} (m : String) (hm : m ≠ "classification") {t t' : St W} (h : SR c s f [(.model, m)] t t') :
    SR c s f [(.model, m)] (ProcFlow.chain c.flow (env c s) m t) (ProcFlow.chain c.flow (env c s) m t') := by
  have hsc : ∀ g : Stg, ProcFlow.scopeModel ([(.model, m)] ++ [(.stage, g.name)]) = some m := fun g => ProcFlow.scopeModel_in hm _
  have hz : SR c s f [(.model, m)] (ProcFlow.step c.flow (env c s) .redshift t).1 (ProcFlow.step c.flow (env c s) .redshift t').1 ∧
      (ProcFlow.step c.flow (env c s) .redshift t).2 = (ProcFlow.step c.flow (env c s) .redshift t').2 :=
    step_sr h _ _ (hsc _) (solve_rel h.rel m).1 (solve_rel h.rel m).2 (solve_inv h.inv m) (solve_inv h.inv' m)
  have hsub : ∀ {t t' : St W}, SR c s f [(.model, m)] t t' →
      SR c s f [(.model, m)] (ProcFlow.chainSub c.flow (env c s) m t) (ProcFlow.chainSub c.flow (env c s) m t') := by
    intro t t' h
    unfold ProcFlow.chainSub
    split_ifs
    · exact (step_other h _ fun w o ho => by rw [hsc] at ho; subst ho; rfl).1
    · exact h
  have hrel : ∀ {t t' : St W}, SR c s f [(.model, m)] t t' →
      SR c s f [(.model, m)] (ProcFlow.chainRel c.flow (env c s) m t) (ProcFlow.chainRel c.flow (env c s) m t') := by
    intro t t' h
    unfold ProcFlow.chainRel
    split_ifs
    · exact (step_other h _ fun w o ho => by rw [hsc] at ho; subst ho; rfl).1
    · exact h
  have hlm : ∀ {t t' : St W}, SR c s f [(.model, m)] t t' →
      SR c s f [(.model, m)] (ProcFlow.chainLm c.flow (env c s) m t) (ProcFlow.chainLm c.flow (env c s) m t') := by
    intro t t' h
    unfold ProcFlow.chainLm
    by_cases h1 : (ProcFlow.truthy (ProcFlow.lmMethod c.flow m) && !decide (m ∈ c.flow.lmCatalog)) = true
    · rw [if_pos h1, if_pos h1]
      simp only [Bool.and_eq_true, Bool.not_eq_true', decide_eq_false_iff_not] at h1
      obtain ⟨i1, j1⟩ := load_inv h.inv m h1.2
      obtain ⟨i2, j2⟩ := load_inv h.inv' m h1.2
      obtain ⟨a, b⟩ := step_sr h .lmLoad _ (hsc _) (load_rel h.rel m).1 (load_rel h.rel m).2 i1 i2
      rw [← b]
      by_cases h2 : (ProcFlow.step c.flow (env c s) .lmLoad t).2 = true
      · rw [if_pos h2, if_pos h2]; exact a
      · rw [if_neg h2, if_neg h2]
        obtain ⟨w1, w2, -⟩ := step_w c.flow (env c s) .lmLoad t hm h.scope
        obtain ⟨w1', w2', -⟩ := step_w c.flow (env c s) .lmLoad t' hm h.scope'
        have w1 : (ProcFlow.step c.flow (env c s) .lmLoad t).1.w = (loadStep c m t.w).1 := w1
        have w1' : (ProcFlow.step c.flow (env c s) .lmLoad t').1.w = (loadStep c m t'.w).1 := w1'
        have h2' : (loadStep c m t.w).2 = none := by
          rw [w2, Bool.not_eq_true, Option.isSome_eq_false_iff, Option.isNone_iff_eq_none] at h2; exact h2
        obtain ⟨z, va, ve, e1, p, hp, hsec⟩ := j1 h2'
        obtain ⟨z', va', ve', e2, p', hp', hsec'⟩ := j2 (by rw [← (load_rel h.rel m).2]; exact h2')
        have e3 : (⟨some z, some va, some ve⟩ : Lm) = ⟨some z', some va', some ve'⟩ := by
          have := e1.symm.trans e2
          cases this; rfl
        have e4 : p.sec m = p'.sec m := by rw [hsec, hsec', e3]
        have mr := measure_rel (s := s) a.rel m p p' (by rw [w1]; exact hp) (by rw [w1']; exact hp') e4
        have own : ∀ q : Par, q.sec m = p.sec m → Own c s f m (q.sec m) := fun q hq => Or.inr ⟨h1.2, z, va, ve, e1, by rw [hq, hsec]⟩
        refine (step_sr a .lineMeas _ (hsc _) mr.1 mr.2 (measure_inv a.inv m fun q hq => ?_) (measure_inv a.inv' m fun q hq => ?_)).1
        · rw [w1, hp] at hq; cases hq; exact own p rfl
        · rw [w1', hp'] at hq; cases hq; exact own p' e4.symm
    · rw [if_neg h1, if_neg h1]; exact h
  unfold ProcFlow.chain
  by_cases h1 : ProcFlow.truthy (ProcFlow.zMethod c.flow m) = true
  · rw [if_pos h1, if_pos h1, ← hz.2]
    by_cases h2 : (ProcFlow.step c.flow (env c s) .redshift t).2 = true
    · rw [if_pos h2, if_pos h2]; exact hz.1
    · rw [if_neg h2, if_neg h2]; exact hlm (hrel (hsub hz.1))
  · rw [if_neg h1, if_neg h1]
    by_cases h3 : (ProcFlow.truthy (ProcFlow.lmMethod c.flow m) && decide (m ∈ c.flow.lmCatalog)) = true
    · rw [if_pos h3, if_pos h3]
      simp only [Bool.and_eq_true, decide_eq_true_eq] at h3
      obtain ⟨z, va, ve, a, b, p, hp, d⟩ := h.inv.cat m h3.2
      obtain ⟨z', va', ve', a', b', p', hp', d'⟩ := h.inv'.cat m h3.2
      have e3 : (⟨some z, some va, some ve⟩ : Lm) = ⟨some z', some va', some ve'⟩ := by
        have := a.symm.trans a'
        cases this; rfl
      have mr := measure_rel (s := s) h.rel m p p' hp hp' (by rw [d, d', e3])
      refine (step_sr h .lineMeas _ (hsc _) mr.1 mr.2 (measure_inv h.inv m fun q hq => ?_) (measure_inv h.inv' m fun q hq => ?_)).1
      · rw [hp] at hq; cases hq; exact Or.inl ⟨h3.2, z, va, ve, a, d⟩
      · rw [hp'] at hq; cases hq; exact Or.inl ⟨h3.2, z, va, ve, a, by rw [d', e3]⟩
    · rw [if_neg h3, if_neg h3]; exact h

theorem processAll_sr {c : Cfg} {s : Src} {f} (l : List String) (hl : ∀ m ∈ l, m ≠ "classification") {t t' : St W} (h : SR c s f [] t t') :
    SR c s f [] (ProcFlow.processAll c.flow (env c s) l t) (ProcFlow.processAll c.flow (env c s) l t') := by
  induction l generalizing t t' with
  | nil => exact h
  | cons m r ih =>
    have hm := hl m (by simp)
    refine ih (fun k hk => hl k (by simp [hk])) ?_
    have h1 : SR c s f [(.model, m)] { t with scope := t.scope ++ [(.model, m)] } { t' with scope := t'.scope ++ [(.model, m)] } :=
      ⟨by rw [h.scope]; rfl, by rw [h.scope']; rfl, h.errors, h.trace, h.rel, h.inv, h.inv'⟩
    have h2 := chain_sr m hm h1
    unfold ProcFlow.processModel
    dsimp only
    exact ⟨by dsimp only; rw [h2.scope]; rfl, by dsimp only; rw [h2.scope']; rfl, h2.errors, h2.trace, h2.rel, h2.inv, h2.inv'⟩

theorem classify_sr {c : Cfg} {s : Src} {f} {t t' : St W} (h : SR c s f [] t t') :
    SR c s f [] (ProcFlow.classify c.flow (env c s) t) (ProcFlow.classify c.flow (env c s) t') := by
  have ha : ProcFlow.allFailed c.flow t = ProcFlow.allFailed c.flow t' := by unfold ProcFlow.allFailed; rw [h.errors]
  unfold ProcFlow.classify
  rw [← ha]
  dsimp only
  by_cases hf : ProcFlow.allFailed c.flow t = true
  · rw [if_pos hf, if_pos hf]
    refine ⟨h.scope, h.scope', ?_, h.trace, h.rel, h.inv, h.inv'⟩
    dsimp only
    rw [h.scope, h.scope', h.errors]
  · rw [if_neg hf, if_neg hf]
    have h1 : SR c s f [(.model, "classification")] { t with scope := t.scope ++ [(.model, "classification")] }
        { t' with scope := t'.scope ++ [(.model, "classification")] } :=
      ⟨by rw [h.scope]; rfl, by rw [h.scope']; rfl, h.errors, h.trace, h.rel, h.inv, h.inv'⟩
    have h2 := (step_other h1 .classification fun w o ho => by
      rw [show ProcFlow.scopeModel ([(.model, "classification")] ++ [(.stage, Stg.classification.name)]) = none from by decide +kernel] at ho
      subst ho; rfl).1
    exact ⟨by dsimp only; rw [h2.scope]; rfl, by dsimp only; rw [h2.scope']; rfl, h2.errors, h2.trace, h2.rel, h2.inv, h2.inv'⟩

/-- What is observed of the processing of a spectrum: the errors, the stages run with their outcomes, the measurements with their parameters, the
results of the solvers, and the line spread function. -/
def Same (st st' : St W) : Prop :=
  st.errors = st'.errors ∧ st.trace = st'.trace ∧ st.w.log = st'.w.log ∧ st.w.res = st'.w.res ∧ st.w.lsf = st'.w.lsf

theorem run_some (c : Cfg) (s : Src) (w : W) : ∃ st, run c s w = some st := by
  unfold run ProcFlow.run
  dsimp only
  split
  · exact ⟨_, if_pos rfl⟩
  · exact ⟨_, rfl⟩

theorem run_rel {c : Cfg} {s : Src} (hw : ProcFlow.WF c.flow) (hc : c.flow.lmCatalog.Nodup) {w w' : W} (h : RelP c w.par w'.par) :
    ∃ st st', run c s w = some st ∧ run c s w' = some st' ∧ Same st st' := by
  obtain ⟨a, b⟩ := init_rel (s := s) h
  have e : ∀ w, (ProcFlow.initialise c.flow ⟨exec c s, fun _ => true⟩ ⟨w, [], fun _ _ => none, []⟩).2 = (initStep c s w).2.isSome := fun _ => rfl
  have hi : (ProcFlow.initialise c.flow (env c s) ⟨w, [], fun _ _ => none, []⟩).1.errors =
        (ProcFlow.initialise c.flow (env c s) ⟨w', [], fun _ _ => none, []⟩).1.errors ∧
      (ProcFlow.initialise c.flow (env c s) ⟨w, [], fun _ _ => none, []⟩).1.trace =
        (ProcFlow.initialise c.flow (env c s) ⟨w', [], fun _ _ => none, []⟩).1.trace := by
    constructor
    · show (match (initStep c s w).2 with | none => fun _ _ => none | some e => _) = (match (initStep c s w').2 with | none => fun _ _ => none | some e => _)
      rw [b]
    · show ([] ++ [⟨.init, none, (initStep c s w).2⟩] : List ProcFlow.Ev) = [] ++ [⟨.init, none, (initStep c s w').2⟩]
      rw [b]
  obtain ⟨st, hst⟩ := run_some c s w
  obtain ⟨st', hst'⟩ := run_some c s w'
  refine ⟨st, st', hst, hst', ?_⟩
  unfold run ProcFlow.run at hst hst'
  dsimp only at hst hst'
  rw [e] at hst hst'
  rw [← b] at hst'
  cases hn : (initStep c s w).2 with
  | some x =>
    rw [hn] at hst hst'
    rw [← Option.some.inj hst, ← Option.some.inj hst']
    exact ⟨hi.1, hi.2, a.log, a.res, a.lsf⟩
  | none =>
    rw [hn] at hst hst'
    have i1 := init_inv c s w _ hc (Prod.ext rfl hn)
    have i2 := init_inv c s w' _ hc (Prod.ext rfl (b ▸ hn))
    rw [← a.lsf] at i2
    have h0 : SR c s (initStep c s w).1.lsf [] (ProcFlow.initialise c.flow (env c s) ⟨w, [], fun _ _ => none, []⟩).1
        (ProcFlow.initialise c.flow (env c s) ⟨w', [], fun _ _ => none, []⟩).1 := ⟨rfl, rfl, hi.1, hi.2, a, i1, i2⟩
    have h1 := processAll_sr c.flow.models (fun m hm => (hw.2 m hm).2) h0
    have hlast : ∀ {t t' : St W}, SR c s (initStep c s w).1.lsf [] t t' → SR c s (initStep c s w).1.lsf []
        (ProcFlow.step c.flow (env c s) .loadStore t).1 (ProcFlow.step c.flow (env c s) .loadStore t').1 := by
      intro t t' h
      exact (step_other h .loadStore fun w o ho => by
        rw [show ProcFlow.scopeModel ([] ++ [(.stage, Stg.loadStore.name)]) = none from by decide +kernel] at ho
        subst ho; rfl).1
    rw [← Option.some.inj hst, ← Option.some.inj hst']
    have h2 : SR c s (initStep c s w).1.lsf [] (ProcFlow.runModels c.flow (env c s) (ProcFlow.initialise c.flow (env c s) ⟨w, [], fun _ _ => none, []⟩).1)
        (ProcFlow.runModels c.flow (env c s) (ProcFlow.initialise c.flow (env c s) ⟨w', [], fun _ _ => none, []⟩).1) := by
      unfold ProcFlow.runModels
      by_cases hu : ProcFlow.solverUsed c.flow = true
      · simp only [if_pos hu]; exact hlast (classify_sr h1)
      · simp only [if_neg hu]; exact hlast h1
    exact ⟨h2.errors, h2.trace, h2.rel.log, h2.rel.res, h2.rel.lsf⟩

/-- The parameter that carries the width of each type of line spread function, and the types that have none. -/
theorem C202_lsf_names (t : String) :
    (t = "gaussianConstantWidth" → lsfParam t = some "width") ∧
    (t = "gaussianConstantResolution" → lsfParam t = some "resolution") ∧
    (t = "gaussianNISPVSSPSF201707" → lsfParam t = some "sourceSize") ∧
    (t = "gaussianVariableWidth" → lsfParam t = some "gaussianVariableWidthFileName") ∧
    (t = "fromSpectrumData" → lsfParam t = none) := by
  refine ⟨?_, ?_, ?_, ?_, ?_⟩ <;> rintro rfl <;> decide +kernel

/-! ### The parameters left by a session -/

/-- What a session with numbers only keeps. -/
structure Keep (c : Cfg) (p0 : Par) (w : W) : Prop where
  good : Good c w.par
  res : ∀ m r, w.res m = some r → r.z ≠ some none ∧ r.va ≠ some none ∧ r.ve ≠ some none
  arg : c.lsfType ≠ "fromSpectrumData" → lsfArg c.lsfType w.par = lsfArg c.lsfType p0

/-- The same for the parameters. -/
structure KeepP (c : Cfg) (p0 p : Par) : Prop where
  good : Good c p
  arg : c.lsfType ≠ "fromSpectrumData" → lsfArg c.lsfType p = lsfArg c.lsfType p0

theorem setZ_keep {c : Cfg} {p0 p : Par} (h : KeepP c p0 p) (m : String) {x : Num} (hx : x ≠ none) : KeepP c p0 (setZ c m x p).1 := by
  unfold setZ
  split_ifs with hm
  · refine ⟨⟨fun k hk => ?_, h.good.2⟩, h.arg⟩
    dsimp only; unfold upd; split_ifs
    · exact ⟨fun e => hx (Option.some.inj e), (h.good.1 m hm).2⟩
    · exact h.good.1 k hk
  · exact h

theorem setVa_keep {c : Cfg} {p0 p : Par} (h : KeepP c p0 p) (m : String) {x : Num} (hx : x ≠ none) : KeepP c p0 (setVa c m x p).1 := by
  unfold setVa
  split_ifs with hm
  · refine ⟨⟨fun k hk => ?_, h.good.2⟩, h.arg⟩
    dsimp only; unfold upd; split_ifs
    · exact ⟨(h.good.1 m hm.1).1, fun e => hx (Option.some.inj e), (h.good.1 m hm.1).2.2⟩
    · exact h.good.1 k hk
  · exact h

theorem setVe_keep {c : Cfg} {p0 p : Par} (h : KeepP c p0 p) (m : String) {x : Num} (hx : x ≠ none) : KeepP c p0 (setVe c m x p).1 := by
  unfold setVe
  split_ifs with hm
  · refine ⟨⟨fun k hk => ?_, h.good.2⟩, h.arg⟩
    dsimp only; unfold upd; split_ifs
    · exact ⟨(h.good.1 m hm.1).1, (h.good.1 m hm.1).2.1, fun e => hx (Option.some.inj e)⟩
    · exact h.good.1 k hk
  · exact h

theorem fromCatalog_keep {c : Cfg} {p0 p : Par} (h : KeepP c p0 p) {s : Src} (hs : FinSrc s) (l : List String) : KeepP c p0 (fromCatalog c s.row l p).1 := by
  induction l generalizing p with
  | nil => exact h
  | cons m r ih =>
    unfold fromCatalog
    cases hr : s.row m with
    | none => exact h
    | some x =>
      obtain ⟨a, b, d⟩ := hs.row m x.1 x.2.1 x.2.2 hr
      dsimp only
      exact next_inv (P := KeepP c p0) (next_inv (P := KeepP c p0) (next_inv (P := KeepP c p0) (setZ_keep h m a) fun q hq => setVa_keep hq m b)
        fun q hq => setVe_keep hq m d) fun q hq => ih hq

theorem fromResults_keep {c : Cfg} {p0 p : Par} (h : KeepP c p0 p) (m : String) (r : Sol) (hr : r.z ≠ some none ∧ r.va ≠ some none ∧ r.ve ≠ some none) :
    KeepP c p0 (fromResults c m r p).1 := by
  obtain ⟨rz, rva, rve⟩ := r
  obtain ⟨a, b, d⟩ := hr
  unfold fromResults
  refine next_inv (P := KeepP c p0) ?_ fun q hq => ?_
  · cases rz with
    | none => exact h
    | some z => exact setZ_keep h m (fun e => a (by rw [e]))
  · cases rva with
    | none => exact hq
    | some va => cases rve with
      | none => exact hq
      | some ve => exact next_inv (P := KeepP c p0) (setVa_keep hq m (fun e => b (by rw [e]))) fun q hq => setVe_keep hq m (fun e => d (by rw [e]))

theorem loadStore_keep {c : Cfg} {p0 : Par} {w : W} (h : Keep c p0 w) : Keep c p0 (loadStore c w).1 := by
  unfold loadStore; split_ifs
  · exact ⟨h.good, h.res, h.arg⟩
  · exact h

theorem onPar_keep {c : Cfg} {p0 : Par} {w : W} (h : Keep c p0 w) {f : Par → Par × Option String} (hf : ∀ p, KeepP c p0 p → KeepP c p0 (f p).1) :
    Keep c p0 (onPar f w).1 := by
  have := hf _ ⟨h.good, h.arg⟩
  exact ⟨this.good, h.res, this.arg⟩

theorem lsfStep_keep {c : Cfg} {p0 : Par} {w : W} (h : Keep c p0 w) {s : Src} (hs : FinSrc s) : Keep c p0 (lsfStep c s w).1 := by
  have hk : ∀ (w : W) l, Keep c p0 w → Keep c p0 { w with lsf := l } := fun w l h => ⟨h.good, h.res, h.arg⟩
  unfold lsfStep
  split_ifs with h1 h2 h3
  · cases ho : s.lsfObs with
    | nil => exact h
    | cons q r =>
      obtain ⟨o, x⟩ := q
      dsimp only
      cases hp : lsfParam s.readerLsf with
      | none => exact h
      | some n =>
        dsimp only
        refine next_inv (P := Keep c p0) (loadStore_keep ⟨⟨h.good.1, fun k hk => ?_⟩, h.res, fun e => absurd h1 e⟩) fun q hq => hk q _ hq
        dsimp only; unfold upd; split_ifs
        · have := hs.lsf (o, x) (by rw [ho]; exact List.mem_cons_self)
          exact fun e => this (Option.some.inj e)
        · exact h.good.2 k hk
  · cases ho : s.lsfObs with
    | nil => exact h
    | cons q r => exact hk _ _ h
  · cases lsfParam c.lsfType with
    | none => exact next_inv (P := Keep c p0) (loadStore_keep h) fun q hq => hq
    | some n => exact next_inv (P := Keep c p0) (loadStore_keep h) fun q hq => hk q _ hq
  · exact hk _ _ h

theorem exec_keep {c : Cfg} {p0 : Par} {s : Src} (hs : FinSrc s) (g : Stg) (m : Option String) (w : W) (h : Keep c p0 w) : Keep c p0 (exec c s g m w).1 := by
  have hi : Keep c p0 (initStep c s w).1 := by
    unfold initStep
    refine next_inv (P := Keep c p0) (next_inv (P := Keep c p0) (next_inv (P := Keep c p0) (next_inv (P := Keep c p0) (next_inv (P := Keep c p0) ?_
      fun q hq => lsfStep_keep hq hs) fun q hq => hq) fun q hq => onPar_keep hq fun p hp => fromCatalog_keep hp hs _) fun q hq => loadStore_keep hq)
      fun q hq => hq
    exact ⟨h.good, fun m r e => (by cases e), h.arg⟩
  have hz : ∀ m, Keep c p0 (solveStep s m w).1 := by
    intro m
    unfold solveStep
    cases hr : s.solve m w.lsf with
    | error e => exact h
    | ok r =>
      refine ⟨h.good, fun k r' hk => ?_, h.arg⟩
      dsimp only at hk
      unfold upd at hk
      split_ifs at hk
      · cases hk; exact hs.sol m _ r hr
      · exact h.res k r' hk
  have hl : ∀ m, Keep c p0 (loadStep c m w).1 := by
    intro m
    unfold loadStep
    cases hr : w.res m with
    | none => exact h
    | some r =>
      exact next_inv (P := Keep c p0) (onPar_keep h fun p hp => fromResults_keep hp m r (h.res m r hr)) fun q hq => loadStore_keep hq
  have hm : ∀ m, Keep c p0 (measureStep s m w).1 := by
    intro m
    unfold measureStep
    cases w.store with
    | none => exact h
    | some p => exact ⟨h.good, h.res, h.arg⟩
  cases g <;> cases m <;> first | exact hi | exact hz _ | exact hl _ | exact hm _ | exact h

theorem session_keep {c : Cfg} {p0 : Par} (l : List Src) (hl : ∀ s ∈ l, FinSrc s) (w : W) (h : Keep c p0 w) : Keep c p0 (session c l w) := by
  induction l generalizing w with
  | nil => exact h
  | cons s r ih =>
    obtain ⟨st, hst⟩ := run_some c s w
    unfold session
    rw [hst]
    exact ih (fun k hk => hl k (List.mem_cons_of_mem _ hk)) _ (run_inv c.flow (env c s) (fun g m w hw => exec_keep (hl s List.mem_cons_self) g m w hw) w h st hst)

theorem fin_iff (x : Option Num) : fin x = true ↔ x ≠ some none := by
  rcases x with _ | _ | x <;> simp [fin]

/-- A spectrum is processed as in a new session, whatever the spectra processed before (and whatever their failures), when none of them had given
NaN as a parameter. -/
theorem C201_history_partial (c : Cfg) (hw : ProcFlow.WF c.flow) (hc : c.flow.lmCatalog.Nodup) (p0 : Par) (hp : Good c p0) (l : List Src)
    (hl : ∀ s ∈ l, FinSrc s) (s : Src) :
    ∃ st st', run c s (session c l (fresh p0)) = some st ∧ run c s (fresh p0) = some st' ∧ Same st st' := by
  have h0 : Keep c p0 (fresh p0) := ⟨hp, fun m r e => (by cases e), fun _ => rfl⟩
  have h1 := session_keep l hl _ h0
  refine run_rel hw hc ⟨fun m hm => ?_, fun m hm => ?_, fun m hm => ?_, fun n hn => ?_, h1.arg⟩
  · exact ((fin_iff _).2 (h1.good.1 m hm).1).trans ((fin_iff _).2 (hp.1 m hm).1).symm
  · exact ((fin_iff _).2 (h1.good.1 m hm).2.1).trans ((fin_iff _).2 (hp.1 m hm).2.1).symm
  · exact ((fin_iff _).2 (h1.good.1 m hm).2.2).trans ((fin_iff _).2 (hp.1 m hm).2.2).symm
  · exact ((fin_iff _).2 (h1.good.2 n hn)).trans ((fin_iff _).2 (hp.2 n hn)).symm

/-! ### The line spread function -/

theorem init_lsf (c : Cfg) (s : Src) (w w' : W) (h : initStep c s w = (w', none)) :
    ∃ w0 w1, w0.par = w.par ∧ lsfStep c s w0 = (w1, none) ∧ w'.lsf = w1.lsf := by
  unfold initStep at h
  obtain ⟨w5, h, h6⟩ := next_none h
  obtain ⟨w4, h, h5⟩ := next_none h
  obtain ⟨w3, h, h4⟩ := next_none h
  obtain ⟨w2, h, h3⟩ := next_none h
  obtain ⟨w1, h1, h2⟩ := next_none h
  refine ⟨w1, w2, ?_, h2, ?_⟩
  · rw [← (Prod.mk.inj h1).1]
  · rw [← (Prod.mk.inj h6).1, loadStore_ok h5, ← (Prod.mk.inj h4).1]
    show w3.lsf = w2.lsf
    rw [← (Prod.mk.inj h3).1]

/-- The line spread function of a spectrum that was initialised: read with the spectrum, for its first observation that has one, when the parameters
say so, whatever the spectra before; else the one of the parameters of the user. -/
theorem C202_lsf_partial (c : Cfg) (hw : ProcFlow.WF c.flow) (hc : c.flow.lmCatalog.Nodup) (p0 : Par) (hp : Good c p0) (l : List Src)
    (hl : ∀ s ∈ l, FinSrc s) (s : Src) (st : St W) (h : run c s (session c l (fresh p0)) = some st) (hi : (⟨.init, none, none⟩ : ProcFlow.Ev) ∈ st.trace) :
    (c.lsfType = "fromSpectrumData" → ∃ o x r, s.lsfObs = (o, x) :: r ∧
      st.w.lsf = some (s.readerLsf, if s.readerLsf = "gaussianNISPSIM2016" then none else some x)) ∧
    (c.lsfType = "gaussianVariableWidth" → st.w.lsf = some (c.lsfType, none)) ∧
    (c.lsfType ≠ "fromSpectrumData" → c.lsfType ≠ "gaussianVariableWidth" → st.w.lsf = some (c.lsfType, lsfArg c.lsfType p0)) := by
  have h0 : Keep c p0 (fresh p0) := ⟨hp, fun m r e => (by cases e), fun _ => rfl⟩
  have hk := session_keep l hl _ h0
  generalize session c l (fresh p0) = w at h hk
  have hok : (initStep c s w).2 = none := by
    rcases run_cases c s w st h with ⟨hne, -⟩ | ⟨hn, -⟩
    · exfalso
      obtain ⟨evs, er, -⟩ : ∃ x : Unit, True ∧ True := ⟨(), trivial, trivial⟩
      have e : st.trace = [⟨.init, none, (initStep c s w).2⟩] := by
        unfold run ProcFlow.run at h
        dsimp only at h
        have e2 : (ProcFlow.initialise c.flow ⟨exec c s, fun _ => true⟩ ⟨w, [], fun _ _ => none, []⟩).2 = (initStep c s w).2.isSome := rfl
        rw [e2] at h
        cases hx : (initStep c s w).2 with
        | none => exact absurd hx hne
        | some x =>
          rw [hx] at h
          rw [← Option.some.inj h, ← hx]
          rfl
      rw [e, List.mem_singleton] at hi
      have : none = (initStep c s w).2 := congrArg ProcFlow.Ev.err hi
      exact hne this.symm
    · exact hn
  have hlsf : st.w.lsf = (initStep c s w).1.lsf := by
    rcases run_cases c s w st h with ⟨hne, -⟩ | ⟨-, rfl⟩
    · exact absurd hok hne
    · have hi0 : Inv c s (initStep c s w).1.lsf (initStep c s w).1 := init_inv c s w _ hc (Prod.ext rfl hok)
      obtain ⟨a, b⟩ := processAll_own c s c.flow.models (fun m hm => (hw.2 m hm).2)
        (ProcFlow.initialise c.flow (env c s) ⟨w, [], fun _ _ => none, []⟩).1 rfl hi0
      unfold ProcFlow.runModels
      dsimp only
      split_ifs
      · obtain ⟨e1, e2⟩ := classify_w c s _ a
        rw [load_w c s _ e2, e1]; exact b.lsf
      · rw [load_w c s _ a]; exact b.lsf
  obtain ⟨w0, w1, e0, h1, h2⟩ := init_lsf c s w _ (Prod.ext rfl hok : initStep c s w = (_, none))
  rw [hlsf, h2]
  refine ⟨fun ht => ?_, fun ht => ?_, fun ht1 ht2 => ?_⟩
  · unfold lsfStep at h1
    rw [if_pos ht] at h1
    cases ho : s.lsfObs with
    | nil => rw [ho] at h1; cases h1
    | cons q r =>
      obtain ⟨o, x⟩ := q
      refine ⟨o, x, r, rfl, ?_⟩
      rw [ho] at h1
      dsimp only at h1
      by_cases hv : s.readerLsf ≠ "gaussianVariableWidth"
      · rw [if_pos hv] at h1
        cases hpn : lsfParam s.readerLsf with
        | none => rw [hpn] at h1; cases h1
        | some n =>
          rw [hpn] at h1
          dsimp only at h1
          obtain ⟨w2, h3, h4⟩ := next_none h1
          rw [← (Prod.mk.inj h4).1, loadStore_ok h3]
          dsimp only
          have hn : n = "" ↔ s.readerLsf = "gaussianNISPSIM2016" := by
            unfold lsfParam at hpn
            split_ifs at hpn with a1 a2 a3 a4
            · cases hpn; rw [a1]; decide +kernel
            · cases hpn; rw [a2]; decide +kernel
            · cases hpn; rw [a3]; decide +kernel
            · cases hpn; rw [a4]; simp
          unfold lsfArg
          rw [hpn]
          by_cases he : n = ""
          · subst he; rw [if_pos (hn.1 rfl)]; rfl
          · rw [if_neg fun e => he (hn.2 e)]
            refine congrArg some (congrArg (Prod.mk s.readerLsf) ?_)
            split
            · rename_i e; cases e; exact absurd rfl he
            · rename_i k hk' e; cases e; exact upd_same _ _ _
            · rename_i e; cases e
      · rw [if_neg hv] at h1
        rw [← (Prod.mk.inj h1).1]
        simp only [ne_eq, not_not] at hv
        rw [if_neg (by rw [hv]; decide +kernel)]
  · unfold lsfStep at h1
    rw [if_neg (by rw [ht]; decide +kernel), if_neg (by simp [ht])] at h1
    rw [← (Prod.mk.inj h1).1]
  · unfold lsfStep at h1
    rw [if_neg ht1, if_pos ht2] at h1
    cases hpn : lsfParam c.lsfType with
    | none =>
      rw [hpn] at h1
      obtain ⟨w2, h3, h4⟩ := next_none h1
      cases h4
    | some n =>
      rw [hpn] at h1
      obtain ⟨w2, h3, h4⟩ := next_none h1
      rw [← (Prod.mk.inj h4).1, loadStore_ok h3]
      dsimp only
      rw [e0, hk.arg ht1]

/-! ## Counterexamples and concrete cases -/

/-- Galaxies with a redshift solver followed by a line measurement, stars with a line measurement on a catalogue. -/
def cfgA (t : String) : Cfg :=
  ⟨⟨["galaxy", "star"], fun m => if m = "galaxy" then ⟨["redshiftSolver", "lineMeasSolver"], some "lineModelSolve", some "lineMeasSolve", none⟩
      else ⟨["lineMeasSolver"], none, some "lineMeasSolve", none⟩, [], ["star"]⟩,
    ["galaxy", "star"], ["galaxy", "star"], t⟩

theorem cfgA_wf (t : String) : ProcFlow.WF (cfgA t).flow := by
  refine ⟨(by decide : (["galaxy", "star"] : List String).Nodup), ?_⟩
  intro m hm
  simp [cfgA] at hm
  rcases hm with rfl | rfl <;> decide

/-- Parameters of the user: velocities of the galaxies and a resolution. -/
def parA : Par :=
  ⟨fun m => if m = "galaxy" then ⟨none, some (some 300), some (some 200)⟩ else ⟨none, none, none⟩,
    fun n => if n = "resolution" then some (some 3000) else none⟩

/-- A spectrum: the row of the stars in the catalogue, the result of the solver of the galaxies, the widths of the line spread function. -/
def srcA (row : Num × Num × Num) (sol : Except String Sol) (lsf : List (String × Num)) : Src :=
  ⟨"gaussianConstantWidth", lsf, fun m => if m = "star" then some row else none, none, none, none, fun _ _ => sol, fun _ _ => none, fun _ _ => none⟩

/-- Measurements, errors of the initialisation, and line spread function of a spectrum in a session. -/
def seen (c : Cfg) (p : Par) (l : List Src) (s : Src) : Option (List (String × Lm) × Option ProcFlow.Code × Option (String × Option Num)) :=
  (run c s (session c l (fresh p))).map fun st => (st.w.log, st.errors none .init, st.w.lsf)

/-- A first spectrum whose redshift solver fails. -/
def first : Src := srcA (some 1, some 10, some 20) (.error "E") []

/-- A second one. -/
def second : Src := srcA (some 2, some 30, some 40) (.ok ⟨some (some 5), some (some 50), some (some 60)⟩) []

/-- One whose velocity is missing in the catalogue. -/
def missing : Src := srcA (some 1, none, some 20) (.error "E") []

/-- The second spectrum is measured with its own redshifts and velocities. -/
example : seen (cfgA "gaussianConstantResolution") parA [first] second =
    some ([("galaxy", ⟨some (some 5), some (some 50), some (some 60)⟩), ("star", ⟨some (some 2), some (some 30), some (some 40)⟩)], none,
      some ("gaussianConstantResolution", some (some 3000))) := by decide +kernel

theorem parA_good (t : String) : Good (cfgA t) parA := by
  constructor
  · intro m hm
    simp [cfgA] at hm
    rcases hm with rfl | rfl <;> decide +kernel
  · intro n hn
    simp [lsfNames] at hn
    rcases hn with rfl | rfl | rfl | rfl | rfl <;> decide +kernel

theorem first_fin : FinSrc first := by
  refine ⟨fun p h => (by cases h), fun m z va ve h => ?_, fun m l r h => (by cases h)⟩
  unfold first srcA at h
  dsimp only at h
  split_ifs at h
  cases h
  exact ⟨by simp, by simp, by simp⟩

/-- The hypotheses of `C201_history_partial`. -/
example : ∃ st st', run (cfgA "gaussianConstantWidth") second (session (cfgA "gaussianConstantWidth") [first] (fresh parA)) = some st ∧
    run (cfgA "gaussianConstantWidth") second (fresh parA) = some st' ∧ Same st st' :=
  C201_history_partial _ (cfgA_wf _) (by decide) _ (parA_good _) _ (fun s h => by rw [List.mem_singleton.1 h]; exact first_fin) _

/-- A velocity missing (NaN) in the catalogue row of a spectrum: every later spectrum of the session fails, although its own values are numbers and it
is processed without error in a new session. -/
theorem C201_nan_counterexample :
    (seen (cfgA "gaussianConstantResolution") parA [] second).map (fun x => x.2.1) = some none ∧
    (seen (cfgA "gaussianConstantResolution") parA [missing] second).map (fun x => x.2.1) = some (some (.own "PYTHON_API_ERROR")) ∧
    (seen (cfgA "gaussianConstantResolution") parA [missing, second, second] second).map (fun x => (x.1, x.2.1)) =
      some ([], some (.own "PYTHON_API_ERROR")) := by decide +kernel

/-- Two observations with a line spread function of their own: the width of the second one has no effect. -/
theorem C202_lsf_counterexample (x y z : Num) (c : Cfg) (s : Src) (w : W) :
    run c { s with lsfObs := [("a", x), ("b", y)] } w = run c { s with lsfObs := [("a", x), ("b", z)] } w := by
  have e : ∀ g m w, exec c { s with lsfObs := [("a", x), ("b", y)] } g m w = exec c { s with lsfObs := [("a", x), ("b", z)] } g m w := by
    intro g m w
    cases g <;> cases m <;> rfl
  unfold run
  have : exec c { s with lsfObs := [("a", x), ("b", y)] } = exec c { s with lsfObs := [("a", x), ("b", z)] } := by
    funext g m w; exact e g m w
  rw [this]

/-- The hypotheses of `C202_lsf_partial`. -/
example : seen (cfgA "fromSpectrumData") parA [first] { second with lsfObs := [("a", some 4), ("b", some 7)] } =
    some ([("galaxy", ⟨some (some 5), some (some 50), some (some 60)⟩), ("star", ⟨some (some 2), some (some 30), some (some 40)⟩)], none,
      some ("gaussianConstantWidth", some (some 4))) := by decide +kernel

end LmParams
end Amazed
