import Verif.Model.OutLoad
import Mathlib.Data.List.Basic
import Mathlib.Data.List.Nodup
import Mathlib.Tactic.SplitIfs
import Mathlib.Tactic.Common

/-!
# C203, C204: loading of the results of a spectrum
-/

set_option autoImplicit true
set_option synthInstance.maxSize 1024
set_option linter.unusedVariables false
set_option linter.unusedSimpArgs false
set_option linter.unusedTactic false
set_option linter.unreachableTactic false
set_option linter.unnecessarySeqFocus false
namespace Amazed
namespace OutLoad

/-! ## Specification -/

/-- The row is to be shown: the extended results are asked for, or it is not one of them. -/
def Visible (c : Cfg) (r : Row) : Prop := c.extended = true ∨ r.ext = false

/-- Well formed table and observations: one row per name in a dataset, one level per dataset, a name of band alone in its dataset, a single
`<MethodType>` row, not by observation, for the datasets of the methods; distinct names for the datasets once the observations are put in. -/
structure Table (c : Cfg) : Prop where
  names : ∀ r ∈ c.rows, ∀ r' ∈ c.rows, r.ds = r'.ds → r.name = r'.name → r = r'
  level : ∀ r ∈ c.rows, ∀ r' ∈ c.rows, r.ds = r'.ds → r.level = r'.level
  band : ∀ r ∈ c.rows, ∀ r' ∈ c.rows, r.ds = r'.ds → r.ph = .band → r' = r
  keys : ∀ r ∈ c.rows, ∀ r' ∈ c.rows, ∀ o ∈ obsOf c r.ds, ∀ o' ∈ obsOf c r'.ds, inst r.ds o = inst r'.ds o' → r.ds = r'.ds ∧ o = o'
  meth : ∀ r ∈ c.rows, r.level = .method → r.ds.multi = false ∧ r.ph = .meth ∧ ∀ r' ∈ c.rows, r'.ds = r.ds → r' = r
  obs : c.obs.Nodup
  rootObj : ∀ r ∈ c.rows, ∀ r' ∈ c.rows, r.ds = r'.ds → r.ph = .obj → r'.ph = .obj → ∀ ot ∈ c.models, ∀ ot' ∈ c.models,
    ot ++ r.name = ot' ++ r'.name → r = r' ∧ ot = ot'
  rootPlain : ∀ r ∈ c.rows, ∀ r' ∈ c.rows, r.ds = r'.ds → r.ph = .obj → r'.ph ≠ .obj → ∀ ot ∈ c.models, ot ++ r.name ≠ r'.name

/-- What the source gives for a request. -/
def Gives (s : Src V) (q : Query) (v : V) : Prop := s.has q = true ∧ s.get q = v

/-- The keys of a dataset. -/
def Key (c : Cfg) (d : DsName) (k : String) : Prop := ∃ o ∈ obsOf c d, k = inst d o

/-- What a dataset of candidates may contain before: nothing, or one dictionary per candidate. -/
def Ready (n : Nat) (x : Option (Ds V)) : Prop := x = none ∨ ∃ l, x = some (.cands l) ∧ (l = [] ∨ l.length = n)

/-- The former attributes of a candidate. -/
def former (x : Option (Ds V)) (i : Nat) : Dict V :=
  match x with
  | some (.cands l) => (l[i]?).getD fun _ => none
  | _ => fun _ => none

/-- The source gives `v` for attribute `a` of candidate `i` of a dataset, for a row to be shown (those of the first pass only when there is a second one);
the photometric values are by band. -/
def CandGiven (c : Cfg) (s : Src V) (ot m : String) (d : DsName) (o : String) (i : Nat) (a : String) (v : V) : Prop :=
  ∃ r ∈ c.rows, r.ds = d ∧ Visible c r ∧ ((c.skip ot = true ∨ m ≠ "lineModelSolve") → r.first = false) ∧
    ((r.ph ≠ .band ∧ r.name = a ∧ Gives s ⟨ot, stageOf m, m, r, some i, none, o⟩ v) ∨
      (r.ph = .band ∧ a ∈ c.bands ∧ Gives s ⟨ot, stageOf m, m, r, some i, some a, ""⟩ v))

/-- The results of model `ot` after a loading (`b'`), from what was there before (`b`): the shown attributes that the source has, with their
values, for the datasets of the object read from the only method that has them, for those of the methods, and for the candidates of the redshift
solver, one dictionary by rank (which keeps the other attributes it had); the rest is unchanged. -/
structure Loaded (c : Cfg) (s : Src V) (ot : String) (b b' : Obj V) : Prop where
  object : ∀ r ∈ c.rows, r.level = .object → Visible c r → ∀ m ∈ methods c ot, s.hasDs ot (stageOf m) m r.ds.base = true →
    (∀ m' ∈ methods c ot, s.hasDs ot (stageOf m') m' r.ds.base = true → m' = m) → ∀ o ∈ obsOf c r.ds,
    ∃ f, b' (inst r.ds o) = some (.dict f) ∧ ∀ a v, f a = some v ↔
      ∃ r' ∈ c.rows, r'.ds = r.ds ∧ Visible c r' ∧ r'.name = a ∧ Gives s ⟨ot, stageOf m, m, r', none, none, o⟩ v
  method : ∀ r ∈ c.rows, r.level = .method → Visible c r → ∃ f, b' r.ds.base = some (.dict f) ∧ ∀ a v, f a = some v ↔
    ∃ m ∈ methods c ot, s.hasDs ot (stageOf m) m r.ds.base = true ∧ m ++ r.name = a ∧ Gives s ⟨ot, stageOf m, m, r, none, none, ""⟩ v
  cand : ∀ r ∈ c.rows, r.level = .candidate → Visible c r → ∀ m, c.zMethod ot = some m → m ≠ "" → s.hasCand ot (stageOf m) m r.ds = true →
    ∀ o ∈ obsOf c r.ds, ∃ l, b' (inst r.ds o) = some (.cands l) ∧ l.length = s.nb ot m ∧ ∀ i < s.nb ot m, ∃ f, l[i]? = some f ∧ ∀ a v,
      f a = some v ↔ CandGiven c s ot m r.ds o i a v ∨ (former (b (inst r.ds o)) i a = some v ∧ ∀ v', ¬CandGiven c s ot m r.ds o i a v')
  kept : ∀ k, (∀ r ∈ c.rows, Visible c r → (r.level = .object → (∃ m ∈ methods c ot, s.hasDs ot (stageOf m) m r.ds.base = true) → ¬Key c r.ds k) ∧
    (r.level = .method → k ≠ r.ds.base) ∧
    (r.level = .candidate → ∀ m, c.zMethod ot = some m → m ≠ "" → s.hasCand ot (stageOf m) m r.ds = true → ¬Key c r.ds k)) → b' k = b k

/-! ## Dictionaries, rows -/

theorem upd_same (f : String → Option A) (k : String) (v : A) : upd f k v k = some v := if_pos rfl
theorem upd_ne (f : String → Option A) {k x : String} (v : A) (h : x ≠ k) : upd f k v x = f x := if_neg h

theorem fill_spec (L : List (String × Option V)) (d : Dict V) (k : String) (v : V)
    (hf : ∀ v v', (k, some v) ∈ L → (k, some v') ∈ L → v = v') :
    fill L d k = some v ↔ (k, some v) ∈ L ∨ (d k = some v ∧ ∀ v', (k, some v') ∉ L) := by
  induction L generalizing d with
  | nil => simp [fill]
  | cons p r ih =>
    obtain ⟨k0, o⟩ := p
    have hf' : ∀ v v', (k, some v) ∈ r → (k, some v') ∈ r → v = v' :=
      fun a b h h' => hf a b (List.mem_cons_of_mem _ h) (List.mem_cons_of_mem _ h')
    cases o with
    | none =>
      unfold fill
      rw [ih d hf']
      simp
    | some v0 =>
      unfold fill
      rw [ih _ hf']
      by_cases hk : k = k0
      · subst hk
        rw [upd_same]
        constructor
        · rintro (h | ⟨h, h2⟩)
          · exact Or.inl (List.mem_cons_of_mem _ h)
          · cases h; exact Or.inl List.mem_cons_self
        · rintro (h | ⟨h, h2⟩)
          · rcases List.mem_cons.1 h with h | h
            · cases h
              by_cases hr : ∃ v', (k, some v') ∈ r
              · obtain ⟨v', hv⟩ := hr
                have := hf v v' List.mem_cons_self (List.mem_cons_of_mem _ hv)
                rw [this]; exact Or.inl hv
              · exact Or.inr ⟨rfl, fun v' hv => hr ⟨v', hv⟩⟩
            · exact Or.inl h
          · exact absurd List.mem_cons_self (h2 v0)
      · rw [upd_ne _ _ hk]
        constructor
        · rintro (h | ⟨h, h2⟩)
          · exact Or.inl (List.mem_cons_of_mem _ h)
          · refine Or.inr ⟨h, fun v' hv => ?_⟩
            rcases List.mem_cons.1 hv with hv | hv
            · cases hv; exact hk rfl
            · exact h2 v' hv
        · rintro (h | ⟨h, h2⟩)
          · rcases List.mem_cons.1 h with h | h
            · cases h; exact absurd rfl hk
            · exact Or.inl h
          · exact Or.inr ⟨h, fun v' hv => h2 v' (List.mem_cons_of_mem _ hv)⟩

theorem ask_some {s : Src V} {q : Query} {v : V} : ask s q = some v ↔ Gives s q v := by
  unfold ask Gives
  split_ifs with h
  · simp [h]
  · simp [h]

theorem mem_uniq (l : List DsName) (d : DsName) : d ∈ uniq l ↔ d ∈ l := by
  induction l with
  | nil => simp [uniq]
  | cons a r ih =>
    unfold uniq
    rw [List.mem_cons, List.mem_cons, List.mem_filter, ih]
    by_cases h : d = a <;> simp [h]

theorem uniq_nodup (l : List DsName) : (uniq l).Nodup := by
  induction l with
  | nil => simp [uniq]
  | cons a r ih =>
    unfold uniq
    refine List.nodup_cons.2 ⟨fun h => ?_, ih.filter _⟩
    have := (List.mem_filter.1 h).2
    simp at this

theorem datasets_nodup (c : Cfg) (l : Level) : (datasets c l).Nodup := by
  unfold datasets
  split_ifs
  · exact uniq_nodup _
  · exact (uniq_nodup _).filter _

theorem mem_datasets (c : Cfg) (l : Level) (d : DsName) : d ∈ datasets c l ↔ ∃ r ∈ c.rows, r.ds = d ∧ r.level = l ∧ Visible c r := by
  have hr : ∀ r, r ∈ rowsAt c l ↔ r ∈ c.rows ∧ r.level = l := by
    intro r; unfold rowsAt; rw [List.mem_filter, decide_eq_true_iff]
  unfold datasets Visible
  split_ifs with h
  · rw [mem_uniq, List.mem_map]
    constructor
    · rintro ⟨r, h1, h2⟩; exact ⟨r, ((hr r).1 h1).1, h2, ((hr r).1 h1).2, Or.inl h⟩
    · rintro ⟨r, h1, h2, h3, -⟩; exact ⟨r, (hr r).2 ⟨h1, h3⟩, h2⟩
  · rw [List.mem_filter, mem_uniq, List.mem_map]
    constructor
    · rintro ⟨-, h2⟩
      rw [Bool.not_eq_true', Bool.eq_false_iff, ne_eq, List.all_eq_true] at h2
      apply Classical.byContradiction
      intro h3
      refine h2 fun r hr' => ?_
      obtain ⟨h4, h5⟩ := List.mem_filter.1 hr'
      apply Classical.byContradiction
      intro h6
      exact h3 ⟨r, ((hr r).1 h4).1, of_decide_eq_true h5, ((hr r).1 h4).2, Or.inr (by simpa using h6)⟩
    · rintro ⟨r, h1, h2, h3, h4⟩
      refine ⟨⟨r, (hr r).2 ⟨h1, h3⟩, h2⟩, ?_⟩
      rw [Bool.not_eq_true', Bool.eq_false_iff, ne_eq, List.all_eq_true]
      intro h5
      have h6 := h5 r (List.mem_filter.2 ⟨(hr r).2 ⟨h1, h3⟩, decide_eq_true h2⟩)
      rcases h4 with h4 | h4
      · exact h h4
      · rw [h4] at h6; cases h6

theorem mem_attributes (c : Cfg) (d : DsName) (r : Row) : r ∈ attributes c d none ↔ r ∈ c.rows ∧ r.ds = d ∧ Visible c r := by
  unfold attributes rowsOf Visible
  simp only [List.mem_filter, Bool.false_and, Bool.not_false, decide_eq_true_iff, Bool.or_eq_true, Bool.not_eq_true', and_true]
  tauto

theorem mem_attributes_cand (c : Cfg) (d : DsName) (ot m : String) (r : Row) : r ∈ attributes c d (some (ot, m)) ↔
    r ∈ c.rows ∧ r.ds = d ∧ Visible c r ∧ ((c.skip ot = true ∨ m ≠ "lineModelSolve") → r.first = false) := by
  unfold attributes rowsOf Visible
  simp only [List.mem_filter, decide_eq_true_iff, Bool.or_eq_true, Bool.not_eq_true', Bool.and_eq_false_iff, Bool.or_eq_false_iff, bne_iff_ne]
  cases c.skip ot <;> cases r.first <;> simp <;> tauto

/-! ## The level of the model -/

theorem objObs_frame (c : Cfg) (s : Src V) (ot m : String) (d : DsName) (l : List String) (b : Obj V) (k : String)
    (h : ∀ o ∈ l, k ≠ inst d o) : objObs c s ot m d l b k = b k := by
  induction l generalizing b with
  | nil => rfl
  | cons o r ih =>
    have e : objObs c s ot m d (o :: r) b = objObs c s ot m d r (upd b (inst d o) (.dict (fill (objEntries c s ot m o d) fun _ => none))) := rfl
    rw [e, ih _ fun o' ho => h o' (List.mem_cons_of_mem _ ho), upd_ne _ _ (h o List.mem_cons_self)]

theorem objObs_value (c : Cfg) (s : Src V) (ot m : String) (d : DsName) (l : List String) (b : Obj V) (o : String) (ho : o ∈ l)
    (hi : ∀ o ∈ l, ∀ o' ∈ l, inst d o = inst d o' → o = o') :
    objObs c s ot m d l b (inst d o) = some (.dict (fill (objEntries c s ot m o d) fun _ => none)) := by
  induction l generalizing b with
  | nil => cases ho
  | cons o0 r ih =>
    have e : objObs c s ot m d (o0 :: r) b = objObs c s ot m d r (upd b (inst d o0) (.dict (fill (objEntries c s ot m o0 d) fun _ => none))) := rfl
    rw [e]
    by_cases h : o ∈ r
    · exact ih _ h fun a ha b hb => hi a (List.mem_cons_of_mem _ ha) b (List.mem_cons_of_mem _ hb)
    · have h0 : o = o0 := (List.mem_cons.1 ho).resolve_right h
      subst h0
      rw [objObs_frame _ _ _ _ _ _ _ _ fun o' ho' e => h (by rw [hi o List.mem_cons_self o' (List.mem_cons_of_mem _ ho') e]; exact ho'), upd_same]

theorem objMethods_frame (c : Cfg) (s : Src V) (ot : String) (d : DsName) (ms : List String) (b : Obj V) (k : String) (h : ¬Key c d k) :
    objMethods c s ot d ms b k = b k := by
  induction ms generalizing b with
  | nil => rfl
  | cons m r ih =>
    unfold objMethods
    rw [ih]
    split_ifs
    · exact objObs_frame _ _ _ _ _ _ _ _ fun o ho e => h ⟨o, ho, e⟩
    · rfl

theorem objMethods_none (c : Cfg) (s : Src V) (ot : String) (d : DsName) (ms : List String) (b : Obj V)
    (h : ∀ m ∈ ms, s.hasDs ot (stageOf m) m d.base = false) : objMethods c s ot d ms b = b := by
  induction ms generalizing b with
  | nil => rfl
  | cons m r ih =>
    unfold objMethods
    rw [h m List.mem_cons_self]
    exact ih _ fun m' hm => h m' (List.mem_cons_of_mem _ hm)

theorem objMethods_value (c : Cfg) (s : Src V) (ot : String) (d : DsName) (ms : List String) (b : Obj V) (m o : String) (hm : m ∈ ms)
    (hd : s.hasDs ot (stageOf m) m d.base = true) (hu : ∀ m' ∈ ms, s.hasDs ot (stageOf m') m' d.base = true → m' = m) (ho : o ∈ obsOf c d)
    (hi : ∀ o ∈ obsOf c d, ∀ o' ∈ obsOf c d, inst d o = inst d o' → o = o') :
    objMethods c s ot d ms b (inst d o) = some (.dict (fill (objEntries c s ot m o d) fun _ => none)) := by
  induction ms generalizing b with
  | nil => cases hm
  | cons m0 r ih =>
    unfold objMethods
    by_cases h : m ∈ r
    · exact ih _ h fun m' h' => hu m' (List.mem_cons_of_mem _ h')
    · have h0 : m = m0 := (List.mem_cons.1 hm).resolve_right h
      subst h0
      rw [objMethods_none, if_pos hd]
      · exact objObs_value c s ot m d _ b o ho hi
      · intro m' hm'
        rw [Bool.eq_false_iff]
        intro e
        exact h (by rw [← hu m' (List.mem_cons_of_mem _ hm') e]; exact hm')

theorem loadObject_frame (c : Cfg) (s : Src V) (ot : String) (l : List DsName) (b : Obj V) (k : String) (h : ∀ d ∈ l, ¬Key c d k) :
    loadObject c s ot l b k = b k := by
  induction l generalizing b with
  | nil => rfl
  | cons d r ih =>
    unfold loadObject
    rw [ih _ fun d' hd => h d' (List.mem_cons_of_mem _ hd), objMethods_frame _ _ _ _ _ _ _ (h d List.mem_cons_self)]

theorem loadObject_value (c : Cfg) (s : Src V) (ot : String) (l : List DsName) (b : Obj V) (d : DsName) (hl : l.Nodup) (hd : d ∈ l) (k : String)
    (hk : Key c d k) (hx : ∀ d' ∈ l, Key c d' k → d' = d) : ∃ b0 : Obj V, b0 k = b k ∧ loadObject c s ot l b k = objMethods c s ot d (methods c ot) b0 k := by
  induction l generalizing b with
  | nil => cases hd
  | cons d0 r ih =>
    unfold loadObject
    by_cases h : d ∈ r
    · obtain ⟨b0, e1, e2⟩ := ih (objMethods c s ot d0 (methods c ot) b) (List.nodup_cons.1 hl).2 h fun d' h' => hx d' (List.mem_cons_of_mem _ h')
      refine ⟨b0, ?_, e2⟩
      rw [e1, objMethods_frame]
      intro hk0
      rw [hx d0 List.mem_cons_self hk0] at hl
      exact (List.nodup_cons.1 hl).1 h
    · have h0 : d = d0 := (List.mem_cons.1 hd).resolve_right h
      subst h0
      refine ⟨b, rfl, ?_⟩
      rw [loadObject_frame]
      intro d' h' hk'
      rw [hx d' (List.mem_cons_of_mem _ h') hk'] at h'
      exact h h'

/-! ## The level of the methods -/

theorem loadMethod_frame (c : Cfg) (s : Src V) (ot : String) (l : List DsName) (b : Obj V) (k : String) (h : ∀ d ∈ l, k ≠ d.base) :
    loadMethod c s ot l b k = b k := by
  induction l generalizing b with
  | nil => rfl
  | cons d r ih =>
    unfold loadMethod
    rw [ih _ fun d' hd => h d' (List.mem_cons_of_mem _ hd), upd_ne _ _ (h d List.mem_cons_self)]

theorem loadMethod_value (c : Cfg) (s : Src V) (ot : String) (l : List DsName) (b : Obj V) (d : DsName) (hd : d ∈ l)
    (hx : ∀ d' ∈ l, d'.base = d.base → d' = d) :
    loadMethod c s ot l b d.base = some (.dict (fill (methEntries c s ot d (methods c ot)) fun _ => none)) := by
  induction l generalizing b with
  | nil => cases hd
  | cons d0 r ih =>
    unfold loadMethod
    by_cases h : d ∈ r
    · exact ih _ h fun d' h' => hx d' (List.mem_cons_of_mem _ h')
    · have h0 : d = d0 := (List.mem_cons.1 hd).resolve_right h
      subst h0
      rw [loadMethod_frame, upd_same]
      intro d' h' e
      rw [hx d' (List.mem_cons_of_mem _ h') e.symm] at h'
      exact h h'

/-! ## The level of the candidates -/

theorem buildRanks_spec (e : Nat → List (String × Option V)) (R : List Nat) (l : List (Dict V)) (hR : R.Nodup) (hl : ∀ k ∈ R, k < l.length) :
    ∃ l', buildRanks e R l = some l' ∧ l'.length = l.length ∧ ∀ i, l'[i]? = if i ∈ R then (l[i]?).map (fill (e i)) else l[i]? := by
  induction R generalizing l with
  | nil => exact ⟨l, rfl, rfl, fun i => by simp⟩
  | cons k r ih =>
    have hk := hl k List.mem_cons_self
    obtain ⟨l', h1, h2, h3⟩ := ih (l.set k (fill (e k) l[k])) (List.nodup_cons.1 hR).2 fun j hj => by
      rw [List.length_set]; exact hl j (List.mem_cons_of_mem _ hj)
    refine ⟨l', ?_, by rw [h2, List.length_set], fun i => ?_⟩
    · unfold buildRanks
      rw [List.getElem?_eq_getElem hk]
      exact h1
    · rw [h3]
      by_cases hi : i ∈ r
      · have hne : k ≠ i := fun e => (List.nodup_cons.1 hR).1 (e ▸ hi)
        rw [if_pos hi, if_pos (List.mem_cons_of_mem _ hi), List.getElem?_set_ne hne]
      · rw [if_neg hi]
        by_cases hik : i = k
        · subst hik
          rw [if_pos List.mem_cons_self, List.getElem?_set_self hk, List.getElem?_eq_getElem hk]; rfl
        · rw [if_neg (fun h => (List.mem_cons.1 h).elim hik hi), List.getElem?_set_ne (Ne.symm hik)]

theorem build_spec (c : Cfg) (s : Src V) (ot m o : String) (d : DsName) (b : Obj V) (h : Ready (s.nb ot m) (b (inst d o))) :
    ∃ l, build c s ot m o d b = some (upd b (inst d o) (.cands l)) ∧ l.length = s.nb ot m ∧
      ∀ i < s.nb ot m, l[i]? = some (fill (candEntries c s ot m o d i) (former (b (inst d o)) i)) := by
  have hrep : ∀ (i : Nat), i < s.nb ot m → (List.replicate (s.nb ot m) (fun _ => none : Dict V))[i]? = some fun _ => none := by
    intro i hi; rw [List.getElem?_replicate, if_pos hi]
  have key : ∀ (l0 : List (Dict V)), l0.length = s.nb ot m → ∃ l, buildRanks (candEntries c s ot m o d) (List.range (s.nb ot m)) l0 = some l ∧
      l.length = s.nb ot m ∧ ∀ i < s.nb ot m, l[i]? = (l0[i]?).map (fill (candEntries c s ot m o d i)) := by
    intro l0 h0
    obtain ⟨l, h1, h2, h3⟩ := buildRanks_spec (candEntries c s ot m o d) (List.range (s.nb ot m)) l0 List.nodup_range
      fun k hk => by rw [h0]; exact List.mem_range.1 hk
    exact ⟨l, h1, h2.trans h0, fun i hi => by rw [h3, if_pos (List.mem_range.2 hi)]⟩
  unfold build
  rcases h with h | ⟨l0, h, h0⟩
  · rw [h]
    obtain ⟨l, h1, h2, h3⟩ := key (List.replicate (s.nb ot m) fun _ => none) List.length_replicate
    dsimp only
    refine ⟨l, by rw [h1]; rfl, h2, fun i hi => ?_⟩
    rw [h3 i hi, hrep i hi]; rfl
  · rw [h]
    dsimp only
    rcases h0 with rfl | h0
    · obtain ⟨l, h1, h2, h3⟩ := key (List.replicate (s.nb ot m) fun _ => none) List.length_replicate
      refine ⟨l, by rw [if_pos (by rfl), h1]; rfl, h2, fun i hi => ?_⟩
      rw [h3 i hi, hrep i hi]; rfl
    · by_cases hz : l0 = []
      · subst hz
        obtain ⟨l, h1, h2, h3⟩ := key (List.replicate (s.nb ot m) fun _ => none) List.length_replicate
        refine ⟨l, by rw [if_pos (by rfl), h1]; rfl, h2, fun i hi => ?_⟩
        rw [h3 i hi, hrep i hi]; rfl
      · obtain ⟨l, h1, h2, h3⟩ := key l0 h0
        refine ⟨l, by rw [if_neg (by simpa using hz), h1]; rfl, h2, fun i hi => ?_⟩
        rw [h3 i hi]
        have : i < l0.length := by rw [h0]; exact hi
        simp [former, List.getElem?_eq_getElem this]

theorem candObs_spec (c : Cfg) (s : Src V) (ot m : String) (d : DsName) (l : List String) (b : Obj V) (hn : l.Nodup)
    (hi : ∀ o ∈ l, ∀ o' ∈ l, inst d o = inst d o' → o = o') (hr : ∀ o ∈ l, Ready (s.nb ot m) (b (inst d o))) :
    ∃ b', candObs c s ot m d l b = some b' ∧ (∀ k, (∀ o ∈ l, k ≠ inst d o) → b' k = b k) ∧
      ∀ o ∈ l, ∃ ll, b' (inst d o) = some (.cands ll) ∧ ll.length = s.nb ot m ∧
        ∀ i < s.nb ot m, ll[i]? = some (fill (candEntries c s ot m o d i) (former (b (inst d o)) i)) := by
  induction l generalizing b with
  | nil => exact ⟨b, rfl, fun k _ => rfl, fun o ho => (by cases ho)⟩
  | cons o0 r ih =>
    obtain ⟨l0, h1, h2, h3⟩ := build_spec c s ot m o0 d b (hr o0 List.mem_cons_self)
    have hne : ∀ o ∈ r, inst d o ≠ inst d o0 := fun o ho e => (List.nodup_cons.1 hn).1
      (by rw [← hi o (List.mem_cons_of_mem _ ho) o0 List.mem_cons_self e]; exact ho)
    obtain ⟨b', g1, g2, g3⟩ := ih (upd b (inst d o0) (.cands l0)) (List.nodup_cons.1 hn).2
      (fun a ha b hb => hi a (List.mem_cons_of_mem _ ha) b (List.mem_cons_of_mem _ hb))
      (fun o ho => by rw [upd_ne _ _ (hne o ho)]; exact hr o (List.mem_cons_of_mem _ ho))
    refine ⟨b', ?_, fun k hk => ?_, fun o ho => ?_⟩
    · unfold candObs; rw [h1]; exact g1
    · rw [g2 k fun o ho => hk o (List.mem_cons_of_mem _ ho), upd_ne _ _ (hk o0 List.mem_cons_self)]
    · rcases List.mem_cons.1 ho with rfl | ho
      · refine ⟨l0, ?_, h2, h3⟩
        rw [g2 _ fun o' ho' e => hne o' ho' e.symm, upd_same]
      · obtain ⟨ll, a1, a2, a3⟩ := g3 o ho
        refine ⟨ll, a1, a2, fun i hi' => ?_⟩
        rw [a3 i hi', upd_ne _ _ (hne o ho)]

theorem candDs_spec (c : Cfg) (s : Src V) (ot m : String) (l : List DsName) (b : Obj V) (hl : l.Nodup) (hobs : ∀ d ∈ l, (obsOf c d).Nodup)
    (hk : ∀ d ∈ l, ∀ d' ∈ l, ∀ o ∈ obsOf c d, ∀ o' ∈ obsOf c d', inst d o = inst d' o' → d = d' ∧ o = o')
    (hr : ∀ d ∈ l, ∀ o ∈ obsOf c d, Ready (s.nb ot m) (b (inst d o))) :
    ∃ b', candDs c s ot m l b = some b' ∧ (∀ k, (∀ d ∈ l, ¬Key c d k) → b' k = b k) ∧
      ∀ d ∈ l, ∀ o ∈ obsOf c d, (s.hasCand ot (stageOf m) m d = false → b' (inst d o) = b (inst d o)) ∧
        (s.hasCand ot (stageOf m) m d = true → ∃ ll, b' (inst d o) = some (.cands ll) ∧ ll.length = s.nb ot m ∧
        ∀ i < s.nb ot m, ll[i]? = some (fill (candEntries c s ot m o d i) (former (b (inst d o)) i))) := by
  induction l generalizing b with
  | nil => exact ⟨b, rfl, fun k _ => rfl, fun d hd => (by cases hd)⟩
  | cons d0 r ih =>
    have hinj : ∀ o ∈ obsOf c d0, ∀ o' ∈ obsOf c d0, inst d0 o = inst d0 o' → o = o' :=
      fun o ho o' ho' e => (hk d0 List.mem_cons_self d0 List.mem_cons_self o ho o' ho' e).2
    obtain ⟨b0, f1, f2, f3⟩ : ∃ b0, (if s.hasCand ot (stageOf m) m d0 then candObs c s ot m d0 (obsOf c d0) b else some b) = some b0 ∧
        (∀ k, ¬Key c d0 k → b0 k = b k) ∧ ∀ o ∈ obsOf c d0, (s.hasCand ot (stageOf m) m d0 = false → b0 (inst d0 o) = b (inst d0 o)) ∧
        (s.hasCand ot (stageOf m) m d0 = true → ∃ ll, b0 (inst d0 o) = some (.cands ll) ∧ ll.length = s.nb ot m ∧
        ∀ i < s.nb ot m, ll[i]? = some (fill (candEntries c s ot m o d0 i) (former (b (inst d0 o)) i))) := by
      by_cases h : s.hasCand ot (stageOf m) m d0 = true
      · rw [if_pos h]
        obtain ⟨b0, g1, g2, g3⟩ := candObs_spec c s ot m d0 (obsOf c d0) b (hobs d0 List.mem_cons_self) hinj (hr d0 List.mem_cons_self)
        exact ⟨b0, g1, fun k hk' => g2 k fun o ho e => hk' ⟨o, ho, e⟩, fun o ho => ⟨fun h' => absurd h (by rw [h']; decide), fun _ => g3 o ho⟩⟩
      · rw [if_neg h]
        exact ⟨b, rfl, fun k _ => rfl, fun o ho => ⟨fun _ => rfl, fun h' => absurd h' h⟩⟩
    have hoff : ∀ d ∈ r, ∀ o ∈ obsOf c d, ¬Key c d0 (inst d o) := by
      rintro d hd o ho ⟨o', ho', e⟩
      have := (hk d (List.mem_cons_of_mem _ hd) d0 List.mem_cons_self o ho o' ho' e).1
      exact (List.nodup_cons.1 hl).1 (this ▸ hd)
    obtain ⟨b', g1, g2, g3⟩ := ih b0 (List.nodup_cons.1 hl).2 (fun d hd => hobs d (List.mem_cons_of_mem _ hd))
      (fun d hd d' hd' => hk d (List.mem_cons_of_mem _ hd) d' (List.mem_cons_of_mem _ hd'))
      (fun d hd o ho => by rw [f2 _ (hoff d hd o ho)]; exact hr d (List.mem_cons_of_mem _ hd) o ho)
    refine ⟨b', ?_, fun k hk' => ?_, fun d hd o ho => ?_⟩
    · unfold candDs; rw [f1]; exact g1
    · rw [g2 k fun d hd => hk' d (List.mem_cons_of_mem _ hd), f2 k (hk' d0 List.mem_cons_self)]
    · rcases List.mem_cons.1 hd with rfl | hd
      · have e : b' (inst d o) = b0 (inst d o) := by
          refine g2 _ ?_
          rintro d' hd' ⟨o', ho', e⟩
          have := (hk d List.mem_cons_self d' (List.mem_cons_of_mem _ hd') o ho o' ho' e).1
          exact (List.nodup_cons.1 hl).1 (this ▸ hd')
        rw [e]
        exact f3 o ho
      · have := g3 d hd o ho
        rw [f2 _ (hoff d hd o ho)] at this
        exact this

/-! ## Loading of a model -/

theorem objEntries_iff {c : Cfg} (ht : Table c) (s : Src V) (ot m o : String) (d : DsName) (a : String) (v : V) :
    fill (objEntries c s ot m o d) (fun _ => none) a = some v ↔
      ∃ r' ∈ c.rows, r'.ds = d ∧ Visible c r' ∧ r'.name = a ∧ Gives s ⟨ot, stageOf m, m, r', none, none, o⟩ v := by
  have hm : ∀ v, (a, some v) ∈ objEntries c s ot m o d ↔
      ∃ r' ∈ c.rows, r'.ds = d ∧ Visible c r' ∧ r'.name = a ∧ Gives s ⟨ot, stageOf m, m, r', none, none, o⟩ v := by
    intro v
    unfold objEntries
    rw [List.mem_map]
    constructor
    · rintro ⟨r, h, e⟩
      obtain ⟨h1, h2, h3⟩ := (mem_attributes c d r).1 h
      obtain ⟨e1, e2⟩ := Prod.mk.inj e
      exact ⟨r, h1, h2, h3, e1, ask_some.1 e2⟩
    · rintro ⟨r, h1, h2, h3, h4, h5⟩
      exact ⟨r, (mem_attributes c d r).2 ⟨h1, h2, h3⟩, Prod.ext h4 (ask_some.2 h5)⟩
  rw [fill_spec, hm]
  · constructor
    · rintro (h | ⟨h, -⟩)
      · exact h
      · cases h
    · exact Or.inl
  · intro v v' h h'
    obtain ⟨r, h1, h2, -, h4, h5⟩ := (hm v).1 h
    obtain ⟨r', g1, g2, -, g4, g5⟩ := (hm v').1 h'
    have := ht.names r h1 r' g1 (h2.trans g2.symm) (h4.trans g4.symm)
    subst this
    exact h5.2.symm.trans g5.2

theorem mem_methEntries (c : Cfg) (s : Src V) (ot : String) (d : DsName) (ms : List String) (p : String × Option V) :
    p ∈ methEntries c s ot d ms ↔ ∃ m ∈ ms, s.hasDs ot (stageOf m) m d.base = true ∧ ∃ w ∈ attributes c d none,
      (if w.ph = .meth then m ++ w.name else w.name, ask s ⟨ot, stageOf m, m, w, none, none, ""⟩) = p := by
  induction ms with
  | nil => simp [methEntries]
  | cons m r ih =>
    unfold methEntries
    rw [List.mem_append, ih]
    constructor
    · rintro (h | ⟨m', h, h2⟩)
      · split_ifs at h with hd
        · obtain ⟨w, h1, h2⟩ := List.mem_map.1 h
          exact ⟨m, List.mem_cons_self, hd, w, h1, h2⟩
        · cases h
      · exact ⟨m', List.mem_cons_of_mem _ h, h2⟩
    · rintro ⟨m', h, hd, w, h1, h2⟩
      rcases List.mem_cons.1 h with rfl | h
      · left; rw [if_pos hd]; exact List.mem_map.2 ⟨w, h1, h2⟩
      · right; exact ⟨m', h, hd, w, h1, h2⟩

theorem append_cancel {a b n : String} (h : a ++ n = b ++ n) : a = b := by
  have h' := congrArg String.toList h
  rw [String.toList_append, String.toList_append] at h'
  exact String.toList_inj.1 (List.append_cancel_right h')

theorem methEntries_iff {c : Cfg} (ht : Table c) (s : Src V) (ot : String) (r : Row) (hr : r ∈ c.rows) (hl : r.level = .method) (hv : Visible c r)
    (a : String) (v : V) : fill (methEntries c s ot r.ds (methods c ot)) (fun _ => none) a = some v ↔
      ∃ m ∈ methods c ot, s.hasDs ot (stageOf m) m r.ds.base = true ∧ m ++ r.name = a ∧ Gives s ⟨ot, stageOf m, m, r, none, none, ""⟩ v := by
  obtain ⟨t1, t2, t3⟩ := ht.meth r hr hl
  have hm : ∀ v, (a, some v) ∈ methEntries c s ot r.ds (methods c ot) ↔
      ∃ m ∈ methods c ot, s.hasDs ot (stageOf m) m r.ds.base = true ∧ m ++ r.name = a ∧ Gives s ⟨ot, stageOf m, m, r, none, none, ""⟩ v := by
    intro v
    rw [mem_methEntries]
    constructor
    · rintro ⟨m, h, hd, w, h1, e⟩
      obtain ⟨g1, g2, -⟩ := (mem_attributes c r.ds w).1 h1
      have := t3 w g1 g2
      subst this
      rw [if_pos t2] at e
      obtain ⟨e1, e2⟩ := Prod.mk.inj e
      exact ⟨m, h, hd, e1, ask_some.1 e2⟩
    · rintro ⟨m, h, hd, e1, e2⟩
      exact ⟨m, h, hd, r, (mem_attributes c r.ds r).2 ⟨hr, rfl, hv⟩, by rw [if_pos t2]; exact Prod.ext e1 (ask_some.2 e2)⟩
  rw [fill_spec, hm]
  · constructor
    · rintro (h | ⟨h, -⟩)
      · exact h
      · cases h
    · exact Or.inl
  · intro v v' h h'
    obtain ⟨m, -, -, h4, h5⟩ := (hm v).1 h
    obtain ⟨m', -, -, g4, g5⟩ := (hm v').1 h'
    have := append_cancel (h4.trans g4.symm)
    subst this
    exact h5.2.symm.trans g5.2

theorem mem_candEntries (c : Cfg) (s : Src V) (ot m o : String) (d : DsName) (i : Nat) (a : String) (v : V) :
    (a, some v) ∈ candEntries c s ot m o d i ↔ CandGiven c s ot m d o i a v := by
  unfold candEntries CandGiven
  rw [List.mem_flatMap]
  constructor
  · rintro ⟨r, h, e⟩
    obtain ⟨h1, h2, h3, h4⟩ := (mem_attributes_cand c d ot m r).1 h
    refine ⟨r, h1, h2, h3, h4, ?_⟩
    split_ifs at e with hb
    · obtain ⟨x, hx, e⟩ := List.mem_map.1 e
      obtain ⟨e1, e2⟩ := Prod.mk.inj e
      subst e1
      exact Or.inr ⟨hb, hx, ask_some.1 e2⟩
    · obtain ⟨e1, e2⟩ := Prod.mk.inj (List.mem_singleton.1 e)
      exact Or.inl ⟨hb, e1.symm, ask_some.1 e2.symm⟩
  · rintro ⟨r, h1, h2, h3, h4, h5⟩
    refine ⟨r, (mem_attributes_cand c d ot m r).2 ⟨h1, h2, h3, h4⟩, ?_⟩
    rcases h5 with ⟨hb, e1, e2⟩ | ⟨hb, e1, e2⟩
    · rw [if_neg hb]; exact List.mem_singleton.2 (Prod.ext e1.symm (ask_some.2 e2).symm)
    · rw [if_pos hb]; exact List.mem_map.2 ⟨a, e1, Prod.ext rfl (ask_some.2 e2)⟩

theorem candEntries_fn {c : Cfg} (ht : Table c) (s : Src V) (ot m o : String) (d : DsName) (i : Nat) (a : String) (v v' : V)
    (h : CandGiven c s ot m d o i a v) (h' : CandGiven c s ot m d o i a v') : v = v' := by
  obtain ⟨r, h1, h2, -, -, h3⟩ := h
  obtain ⟨r', g1, g2, -, -, g3⟩ := h'
  rcases h3 with ⟨hb, e1, e2⟩ | ⟨hb, e1, e2⟩
  · rcases g3 with ⟨gb, f1, f2⟩ | ⟨gb, f1, f2⟩
    · have := ht.names r h1 r' g1 (h2.trans g2.symm) (e1.trans f1.symm)
      subst this
      exact e2.2.symm.trans f2.2
    · have := ht.band r' g1 r h1 (g2.trans h2.symm) gb
      subst this; exact absurd gb hb
  · have := ht.band r h1 r' g1 (h2.trans g2.symm) hb
    subst this
    rcases g3 with ⟨gb, f1, f2⟩ | ⟨gb, f1, f2⟩
    · exact absurd hb gb
    · exact e2.2.symm.trans f2.2

theorem obsOf_nodup {c : Cfg} (ht : Table c) (d : DsName) : (obsOf c d).Nodup := by
  unfold obsOf; split_ifs
  · exact ht.obs
  · simp

theorem model_spec {c : Cfg} (ht : Table c) (s : Src V) (ot : String) (b : Obj V)
    (hready : ∀ r ∈ c.rows, r.level = .candidate → ∀ o ∈ obsOf c r.ds, ∀ m, c.zMethod ot = some m → Ready (s.nb ot m) (b (inst r.ds o))) :
    ∃ b', loadModel c s ot b = some b' ∧ Loaded c s ot b b' := by
  -- rows of the datasets of a level
  have hds : ∀ {l d}, d ∈ datasets c l → ∃ r ∈ c.rows, r.ds = d ∧ r.level = l ∧ Visible c r := fun h => (mem_datasets c _ _).1 h
  have hin : ∀ r ∈ c.rows, Visible c r → r.ds ∈ datasets c r.level := fun r h hv => (mem_datasets c _ _).2 ⟨r, h, rfl, rfl, hv⟩
  have hkey : ∀ r ∈ c.rows, ∀ r' ∈ c.rows, ∀ k, Key c r.ds k → Key c r'.ds k → r.ds = r'.ds := by
    rintro r h r' h' k ⟨o, ho, rfl⟩ ⟨o', ho', e⟩
    exact (ht.keys r h r' h' o ho o' ho' e).1
  have hmk : ∀ r ∈ c.rows, r.level = .method → Key c r.ds r.ds.base := by
    intro r h hl
    obtain ⟨t1, -, -⟩ := ht.meth r h hl
    exact ⟨"", by unfold obsOf; rw [t1]; simp, by unfold inst; rw [t1]; simp⟩
  -- a key of a dataset of another level
  have hoff : ∀ r ∈ c.rows, ∀ k, Key c r.ds k → ∀ l, l ≠ r.level → ∀ d ∈ datasets c l, ¬Key c d k := by
    intro r h k hk l hl d hd hk'
    obtain ⟨r', h1, h2, h3, -⟩ := hds hd
    subst h2
    have := ht.level r h r' h1 (hkey r h r' h1 k hk hk')
    exact hl (by rw [← h3, this])
  have hoffm : ∀ r ∈ c.rows, ∀ k, Key c r.ds k → Level.method ≠ r.level → ∀ d ∈ datasets c .method, k ≠ d.base := by
    intro r h k hk hl d hd e
    obtain ⟨r', h1, h2, h3, -⟩ := hds hd
    subst h2
    exact hoff r h k hk .method hl _ hd (e ▸ hmk r' h1 h3)
  -- values after the two first levels
  have h1 : ∀ r ∈ c.rows, r.level = .candidate → ∀ k, Key c r.ds k →
      loadMethod c s ot (datasets c .method) (loadObject c s ot (datasets c .object) b) k = b k := by
    intro r h hl k hk
    rw [loadMethod_frame _ _ _ _ _ _ (hoffm r h k hk (by rw [hl]; decide)), loadObject_frame _ _ _ _ _ _ (hoff r h k hk .object (by rw [hl]; decide))]
  -- the candidates
  have hc : ∃ b', loadModel c s ot b = some b' ∧
      (∀ k, (∀ m, c.zMethod ot = some m → m ≠ "" → ∀ r ∈ c.rows, Visible c r → r.level = .candidate → s.hasCand ot (stageOf m) m r.ds = true → ¬Key c r.ds k) →
        b' k = loadMethod c s ot (datasets c .method) (loadObject c s ot (datasets c .object) b) k) ∧
      ∀ r ∈ c.rows, r.level = .candidate → Visible c r → ∀ m, c.zMethod ot = some m → m ≠ "" → s.hasCand ot (stageOf m) m r.ds = true →
        ∀ o ∈ obsOf c r.ds, ∃ l, b' (inst r.ds o) = some (.cands l) ∧ l.length = s.nb ot m ∧
          ∀ i < s.nb ot m, l[i]? = some (fill (candEntries c s ot m o r.ds i) (former (b (inst r.ds o)) i)) := by
    unfold loadModel loadCand
    cases hz : c.zMethod ot with
    | none => exact ⟨_, rfl, fun k _ => rfl, fun r _ _ _ m e => by cases e⟩
    | some m =>
      dsimp only
      by_cases hm : m = ""
      · rw [if_pos hm]
        exact ⟨_, rfl, fun k _ => rfl, fun r _ _ _ m' e h => absurd hm (by cases e; exact h)⟩
      · rw [if_neg hm]
        obtain ⟨b', g1, g2, g3⟩ := candDs_spec c s ot m (datasets c .candidate)
          (loadMethod c s ot (datasets c .method) (loadObject c s ot (datasets c .object) b)) (datasets_nodup c _) (fun d _ => obsOf_nodup ht d)
          (by
            intro d hd d' hd' o ho o' ho' e
            obtain ⟨r, a1, a2, -, -⟩ := hds hd
            obtain ⟨r', a1', a2', -, -⟩ := hds hd'
            subst a2; subst a2'
            exact ht.keys r a1 r' a1' o ho o' ho' e)
          (by
            intro d hd o ho
            obtain ⟨r, a1, a2, a3, -⟩ := hds hd
            subst a2
            rw [h1 r a1 a3 _ ⟨o, ho, rfl⟩]
            exact hready r a1 a3 o ho m hz)
        refine ⟨b', g1, fun k hk => ?_, fun r hr hl hv m' e _ hcand o ho => ?_⟩
        · by_cases hex : ∃ d ∈ datasets c .candidate, Key c d k
          · obtain ⟨d, hd, o, ho, rfl⟩ := hex
            obtain ⟨r, a1, a2, a3, a4⟩ := hds hd
            subst a2
            refine (g3 r.ds hd o ho).1 (Bool.eq_false_iff.2 fun hcand => ?_)
            exact hk m rfl hm r a1 a4 a3 hcand ⟨o, ho, rfl⟩
          · exact g2 k fun d hd hk' => hex ⟨d, hd, hk'⟩
        · cases e
          obtain ⟨l, e1, e2, e3⟩ := (g3 r.ds (hl ▸ hin r hr hv) o ho).2 hcand
          refine ⟨l, e1, e2, fun i hi => ?_⟩
          rw [e3 i hi, h1 r hr hl _ ⟨o, ho, rfl⟩]
  obtain ⟨b', hb, hframe, hcand⟩ := hc
  refine ⟨b', hb, ⟨?_, ?_, ?_, ?_⟩⟩
  · intro r hr hl hv m hm hd hu o ho
    have hk : Key c r.ds (inst r.ds o) := ⟨o, ho, rfl⟩
    obtain ⟨b0, -, e2⟩ := loadObject_value c s ot (datasets c .object) b r.ds (datasets_nodup c _) (hl ▸ hin r hr hv) (inst r.ds o) hk (by
      intro d' hd' hk'
      obtain ⟨r', a1, a2, -, -⟩ := hds hd'
      subst a2
      exact hkey r' a1 r hr _ hk' hk)
    refine ⟨_, ?_, fun a v => objEntries_iff ht s ot m o r.ds a v⟩
    rw [hframe _ (fun m' _ _ r' hr' hv' hl' _ hk' => hoff r hr _ hk .candidate (by rw [hl]; decide) r'.ds (hl' ▸ hin r' hr' hv') hk'),
      loadMethod_frame _ _ _ _ _ _ (hoffm r hr _ hk (by rw [hl]; decide)), e2]
    exact objMethods_value c s ot r.ds _ b0 m o hm hd hu ho fun a ha a' ha' e => (ht.keys r hr r hr a ha a' ha' e).2
  · intro r hr hl hv
    refine ⟨_, ?_, fun a v => methEntries_iff ht s ot r hr hl hv a v⟩
    rw [hframe _ (fun m' _ _ r' hr' hv' hl' _ hk' => hoff r hr _ (hmk r hr hl) .candidate (by rw [hl]; decide) r'.ds (hl' ▸ hin r' hr' hv') hk')]
    refine loadMethod_value c s ot _ _ r.ds (hl ▸ hin r hr hv) ?_
    intro d' hd' e
    obtain ⟨r', a1, a2, a3, -⟩ := hds hd'
    subst a2
    exact hkey r' a1 r hr r.ds.base (e ▸ hmk r' a1 a3) (hmk r hr hl)
  · intro r hr hl hv m hz hm hca o ho
    obtain ⟨l, e1, e2, e3⟩ := hcand r hr hl hv m hz hm hca o ho
    refine ⟨l, e1, e2, fun i hi => ⟨_, e3 i hi, fun a v => ?_⟩⟩
    rw [fill_spec _ _ _ _ fun v v' h h' => candEntries_fn ht s ot m o r.ds i a v v' ((mem_candEntries ..).1 h) ((mem_candEntries ..).1 h'), mem_candEntries]
    exact or_congr Iff.rfl (and_congr Iff.rfl (forall_congr' fun v' => not_congr (mem_candEntries ..)))
  · intro k hk
    rw [hframe k fun m hz hm r hr hv hl hca => (hk r hr hv).2.2 hl m hz hm hca, loadMethod_frame]
    · have : ∀ (l : List DsName) (b : Obj V), (∀ d ∈ l, d ∈ datasets c .object) → loadObject c s ot l b k = b k := by
        intro l
        induction l with
        | nil => intro b _; rfl
        | cons d r ih =>
          intro b hl
          unfold loadObject
          rw [ih _ fun d' hd' => hl d' (List.mem_cons_of_mem _ hd')]
          obtain ⟨w, a1, a2, a3, a4⟩ := hds (hl d List.mem_cons_self)
          subst a2
          by_cases hex : ∃ m ∈ methods c ot, s.hasDs ot (stageOf m) m w.ds.base = true
          · exact objMethods_frame _ _ _ _ _ _ _ ((hk w a1 a4).1 a3 hex)
          · rw [objMethods_none]
            intro m hm
            rw [Bool.eq_false_iff]
            exact fun e => hex ⟨m, hm, e⟩
      exact this _ b fun d hd => hd
    · intro d hd
      obtain ⟨w, a1, a2, a3, a4⟩ := hds hd
      subst a2
      exact (hk w a1 a4).2.1 a3

/-! ## Loading of the output -/

theorem loadModels_spec {c : Cfg} (s : Src V) (l : List String) (f : String → Obj V) (hn : l.Nodup)
    (h : ∀ ot ∈ l, ∃ b', loadModel c s ot (f ot) = some b' ∧ Loaded c s ot (f ot) b') :
    ∃ g, loadModels c s l f = some g ∧ (∀ ot ∉ l, g ot = f ot) ∧ ∀ ot ∈ l, Loaded c s ot (f ot) (g ot) := by
  induction l generalizing f with
  | nil => exact ⟨f, rfl, fun _ _ => rfl, fun ot h => (by cases h)⟩
  | cons a r ih =>
    obtain ⟨b', h1, h2⟩ := h a List.mem_cons_self
    obtain ⟨ha, hr⟩ := List.nodup_cons.1 hn
    have hne : ∀ ot ∈ r, ot ≠ a := fun ot ho e => ha (e ▸ ho)
    obtain ⟨g, g1, g2, g3⟩ := ih (fun x => if x = a then b' else f x) hr fun ot ho => by
      rw [if_neg (hne ot ho)]; exact h ot (List.mem_cons_of_mem _ ho)
    refine ⟨g, ?_, fun ot ho => ?_, fun ot ho => ?_⟩
    · unfold loadModels; rw [h1]; exact g1
    · rw [List.mem_cons, not_or] at ho
      rw [g2 ot ho.2, if_neg ho.1]
    · rcases List.mem_cons.1 ho with rfl | ho
      · rw [g2 ot ha, if_pos rfl]; exact h2
      · have := g3 ot ho
        rw [if_neg (hne ot ho)] at this
        exact this

/-- Loading the results of a spectrum never fails, and then the results of each model are those of the result store. -/
theorem C203_loaded_partial {c : Cfg} (ht : Table c) (hn : c.models.Nodup) (s : Src V) (w : Out V)
    (hready : ∀ ot ∈ c.models, ∀ r ∈ c.rows, r.level = .candidate → ∀ o ∈ obsOf c r.ds, ∀ m, c.zMethod ot = some m →
      Ready (s.nb ot m) (w.objs ot (inst r.ds o))) :
    ∃ w', loadAll c s false w = some w' ∧ w'.cache = true ∧ (∀ ot ∈ c.models, Loaded c s ot (w.objs ot) (w'.objs ot)) ∧
      ∀ ot ∉ c.models, w'.objs ot = w.objs ot := by
  obtain ⟨g, g1, g2, g3⟩ := loadModels_spec s c.models w.objs hn fun ot ho => model_spec ht s ot (w.objs ot) (hready ot ho)
  refine ⟨⟨loadRoot c s (datasets c .root) w.root, g, true⟩, ?_, rfl, g3, g2⟩
  unfold loadAll
  dsimp only
  rw [g1]; rfl

/-- When the initialisation failed only the results of the root are loaded. -/
theorem C203_init (c : Cfg) (s : Src V) (w : Out V) :
    ∃ w', loadAll c s true w = some w' ∧ w'.cache = w.cache ∧ w'.objs = w.objs := ⟨_, rfl, rfl, rfl⟩

theorem loadRoot_frame (c : Cfg) (s : Src V) (l : List DsName) (f : String → Option (Dict V)) (k : String) (h : ∀ d ∈ l, k ≠ d.base) :
    loadRoot c s l f k = f k := by
  induction l generalizing f with
  | nil => rfl
  | cons d r ih =>
    unfold loadRoot
    rw [ih _ fun d' hd => h d' (List.mem_cons_of_mem _ hd)]
    split_ifs
    · rw [upd_ne _ _ (h d List.mem_cons_self)]
    · rfl

/-- The datasets of the root (classification, warning flags), whether the initialisation failed or not. -/
theorem C203_root {c : Cfg} (ht : Table c) (s : Src V) (w w' : Out V) (e : Bool) (h : loadAll c s e w = some w') (r : Row) (hr : r ∈ c.rows)
    (hl : r.level = .root) (hv : Visible c r) (hd : s.hasDs "" "" "" r.ds.base = true)
    (hb : ∀ r' ∈ c.rows, r'.level = .root → r'.ds.base = r.ds.base → r'.ds = r.ds) :
    ∃ f, w'.root r.ds.base = some f ∧ ∀ a v, f a = some v ↔ ∃ r' ∈ c.rows, r'.ds = r.ds ∧ Visible c r' ∧
      ((r'.ph ≠ .obj ∧ r'.name = a ∧ Gives s ⟨"", "", "", r', none, none, ""⟩ v) ∨
        (r'.ph = .obj ∧ ∃ ot ∈ c.models, ot ++ r'.name = a ∧ Gives s ⟨ot, "", "", r', none, none, ""⟩ v)) := by
  have e0 : w'.root = loadRoot c s (datasets c .root) w.root := by
    unfold loadAll at h
    dsimp only at h
    split_ifs at h
    · rw [← Option.some.inj h]
    · cases hx : loadModels c s c.models w.objs with
      | none => rw [hx] at h; cases h
      | some g => rw [hx] at h; rw [← Option.some.inj h]
  have hval : ∀ (l : List DsName) (f : String → Option (Dict V)), r.ds ∈ l → l.Nodup → (∀ d ∈ l, d.base = r.ds.base → d = r.ds) →
      loadRoot c s l f r.ds.base = some (fill (rootEntries c s r.ds) fun _ => none) := by
    intro l
    induction l with
    | nil => intro f hm; cases hm
    | cons d t ih =>
      intro f hm hnd hu
      unfold loadRoot
      by_cases ha : r.ds ∈ t
      · exact ih _ ha (List.nodup_cons.1 hnd).2 fun d' hd' => hu d' (List.mem_cons_of_mem _ hd')
      · have h0 : r.ds = d := (List.mem_cons.1 hm).resolve_right ha
        rw [loadRoot_frame, ← h0, if_pos hd, upd_same]
        intro d' hd' e
        rw [hu d' (List.mem_cons_of_mem _ hd') e.symm] at hd'
        exact ha hd'
  have hm : ∀ a v, (a, some v) ∈ rootEntries c s r.ds ↔ ∃ r' ∈ c.rows, r'.ds = r.ds ∧ Visible c r' ∧
      ((r'.ph ≠ .obj ∧ r'.name = a ∧ Gives s ⟨"", "", "", r', none, none, ""⟩ v) ∨
        (r'.ph = .obj ∧ ∃ ot ∈ c.models, ot ++ r'.name = a ∧ Gives s ⟨ot, "", "", r', none, none, ""⟩ v)) := by
    intro a v
    unfold rootEntries
    rw [List.mem_flatMap]
    constructor
    · rintro ⟨r', h, e⟩
      obtain ⟨h1, h2, h3⟩ := (mem_attributes c r.ds r').1 h
      refine ⟨r', h1, h2, h3, ?_⟩
      split_ifs at e with ho
      · obtain ⟨x, hx, e⟩ := List.mem_map.1 e
        obtain ⟨e1, e2⟩ := Prod.mk.inj e
        exact Or.inr ⟨ho, x, hx, e1, ask_some.1 e2⟩
      · obtain ⟨e1, e2⟩ := Prod.mk.inj (List.mem_singleton.1 e)
        exact Or.inl ⟨ho, e1.symm, ask_some.1 e2.symm⟩
    · rintro ⟨r', h1, h2, h3, h4⟩
      refine ⟨r', (mem_attributes c r.ds r').2 ⟨h1, h2, h3⟩, ?_⟩
      rcases h4 with ⟨ho, e1, e2⟩ | ⟨ho, x, hx, e1, e2⟩
      · rw [if_neg ho]; exact List.mem_singleton.2 (Prod.ext e1.symm (ask_some.2 e2).symm)
      · rw [if_pos ho]; exact List.mem_map.2 ⟨x, hx, Prod.ext e1 (ask_some.2 e2)⟩
  refine ⟨fill (rootEntries c s r.ds) fun _ => none, ?_, fun a v => ?_⟩
  · rw [e0]
    refine hval _ _ ((mem_datasets c _ _).2 ⟨r, hr, rfl, hl, hv⟩) (datasets_nodup c _) ?_
    intro d hd e
    obtain ⟨r', a1, a2, a3, -⟩ := (mem_datasets c _ _).1 hd
    subst a2
    exact hb r' a1 a3 e
  · rw [fill_spec, hm]
    · constructor
      · rintro (h | ⟨h, -⟩)
        · exact h
        · cases h
      · exact Or.inl
    · intro v v' h h'
      obtain ⟨q, h1, h2, -, h3⟩ := (hm a v).1 h
      obtain ⟨q', g1, g2, -, g3⟩ := (hm a v').1 h'
      rcases h3 with ⟨hb, e1, e2⟩ | ⟨hb, x, hx, e1, e2⟩
      · rcases g3 with ⟨gb, f1, f2⟩ | ⟨gb, x, hx, f1, f2⟩
        · have := ht.names q h1 q' g1 (h2.trans g2.symm) (e1.trans f1.symm)
          subst this
          exact e2.2.symm.trans f2.2
        · exact absurd (f1.trans e1.symm) (ht.rootPlain q' g1 q h1 (g2.trans h2.symm) gb hb x hx)
      · rcases g3 with ⟨gb, f1, f2⟩ | ⟨gb, y, hy, f1, f2⟩
        · exact absurd (e1.trans f1.symm) (ht.rootPlain q h1 q' g1 (h2.trans g2.symm) hb gb x hx)
        · obtain ⟨i1, i2⟩ := ht.rootObj q h1 q' g1 (h2.trans g2.symm) hb gb x hx y hy (e1.trans f1.symm)
          subst i1; subst i2
          exact e2.2.symm.trans f2.2

/-! ## Attributes before and after the loading -/

theorem find_row {c : Cfg} (ht : Table c) (r : Row) (hr : r ∈ c.rows) (hp : r.ph = .plain) (hm : r.ds.multi = false) :
    (c.rows.find? fun q => decide (q.name = r.name ∧ q.ph = .plain ∧ q.ds = ⟨r.ds.base, false⟩)) = some r := by
  have e0 : (⟨r.ds.base, false⟩ : DsName) = r.ds := by rw [← hm]
  rw [e0]
  cases hf : c.rows.find? fun q => decide (q.name = r.name ∧ q.ph = .plain ∧ q.ds = r.ds) with
  | none =>
    rw [List.find?_eq_none] at hf
    exact absurd (decide_eq_true ⟨rfl, hp, rfl⟩) (hf r hr)
  | some q =>
    have h1 := List.mem_of_find?_eq_some hf
    have h2 : q.name = r.name ∧ q.ph = Ph.plain ∧ q.ds = r.ds := by simpa using List.find?_some hf
    rw [ht.names q h1 r hr h2.2.2 h2.1]

theorem opt_ext {A : Type} {x y : Option A} (h : ∀ v, x = some v ↔ y = some v) : x = y := by
  cases x with
  | none => cases y with
    | none => rfl
    | some w => exact ((h w).2 rfl)
  | some w => exact ((h w).1 rfl).symm

/-- An attribute of a dataset of a model, read by the method which `get_method` gives for it, is the same when it is read in the result store
(`w0`, not loaded) and in the loaded results (`w'`). -/
theorem C204_object_partial {c : Cfg} (ht : Table c) (hn : c.models.Nodup) (s : Src V) (w w' w0 : Out V)
    (hready : ∀ ot ∈ c.models, ∀ r ∈ c.rows, r.level = .candidate → ∀ o ∈ obsOf c r.ds, ∀ m, c.zMethod ot = some m →
      Ready (s.nb ot m) (w.objs ot (inst r.ds o)))
    (h : loadAll c s false w = some w') (h0 : w0.cache = false) (ot : String) (hot : ot ∈ c.models) (r : Row) (hr : r ∈ c.rows) (hl : r.level = .object)
    (hv : Visible c r) (hp : r.ph = .plain) (hmu : r.ds.multi = false) (m : String) (hg : getMethod c ot r.ds.base = some m) (hm : m ∈ methods c ot)
    (hd : s.hasDs ot (stageOf m) m r.ds.base = true)
    (hu : ∀ m' ∈ methods c ot, s.hasDs ot (stageOf m') m' r.ds.base = true → m' = m) :
    getAttribute c s w' ot r.ds.base r.name none = getAttribute c s w0 ot r.ds.base r.name none := by
  obtain ⟨w2, e1, e2, e3, -⟩ := C203_loaded_partial ht hn s w hready
  rw [h] at e1
  cases e1
  obtain ⟨f, g1, g2⟩ := (e3 ot hot).object r hr hl hv m hm hd hu "" (by unfold obsOf; rw [hmu]; simp)
  have ei : inst r.ds "" = r.ds.base := by unfold inst; rw [hmu]; rfl
  rw [ei] at g1
  unfold getAttribute
  rw [if_pos e2, if_neg (by rw [h0]; decide), find_row ht r hr hp hmu, g1]
  dsimp only
  rw [hg]
  refine opt_ext fun v => ?_
  show f r.name = some v ↔ ask s ⟨ot, stageOf m, m, r, none, none, ""⟩ = some v
  rw [g2, ask_some]
  constructor
  · rintro ⟨r', a1, a2, -, a4, a5⟩
    have := ht.names r' a1 r hr a2 a4
    subst this; exact a5
  · intro hq; exact ⟨r, hr, rfl, hv, rfl, hq⟩

/-- The same for an attribute of a candidate. -/
theorem C204_candidate {c : Cfg} (ht : Table c) (hn : c.models.Nodup) (s : Src V) (w w' w0 : Out V)
    (hready : ∀ ot ∈ c.models, ∀ r ∈ c.rows, r.level = .candidate → ∀ o ∈ obsOf c r.ds, ∀ m, c.zMethod ot = some m →
      Ready (s.nb ot m) (w.objs ot (inst r.ds o)))
    (h : loadAll c s false w = some w') (h0 : w0.cache = false) (ot : String) (hot : ot ∈ c.models) (r : Row) (hr : r ∈ c.rows) (hl : r.level = .candidate)
    (hv : Visible c r) (hp : r.ph = .plain) (hmu : r.ds.multi = false) (hb : r.ds.base ≠ "linemeas") (m : String) (hz : c.zMethod ot = some m) (hm : m ≠ "")
    (hf : (c.skip ot = true ∨ m ≠ "lineModelSolve") → r.first = false) (hc : s.hasCand ot (stageOf m) m r.ds = true) (i : Nat) (hi : i < s.nb ot m)
    (hold : former (w.objs ot r.ds.base) i r.name = none) :
    getAttribute c s w' ot r.ds.base r.name (some i) = getAttribute c s w0 ot r.ds.base r.name (some i) := by
  obtain ⟨w2, e1, e2, e3, -⟩ := C203_loaded_partial ht hn s w hready
  rw [h] at e1
  cases e1
  have ei : inst r.ds "" = r.ds.base := by unfold inst; rw [hmu]; rfl
  obtain ⟨l, g1, g2, g3⟩ := (e3 ot hot).cand r hr hl hv m hz hm hc "" (by unfold obsOf; rw [hmu]; simp)
  obtain ⟨f, g4, g5⟩ := g3 i hi
  rw [ei] at g1
  unfold getAttribute
  rw [if_pos e2, if_neg (by rw [h0]; decide), find_row ht r hr hp hmu, g1]
  dsimp only
  have hgm : getMethod c ot r.ds.base = some m := by unfold getMethod; rw [if_neg hb, hz]
  rw [hgm, g4]
  refine opt_ext fun v => ?_
  show f r.name = some v ↔ ask s ⟨ot, stageOf m, m, r, some i, none, ""⟩ = some v
  rw [g5, ask_some]
  constructor
  · rintro (⟨r', a1, a2, -, -, a4⟩ | ⟨a, -⟩)
    · rcases a4 with ⟨-, a5, a6⟩ | ⟨a5, -⟩
      · have := ht.names r' a1 r hr a2 a5
        subst this; exact a6
      · have := ht.band r' a1 r hr a2 a5
        subst this; rw [hp] at a5; cases a5
    · rw [ei, hold] at a; cases a
  · intro hq; exact Or.inl ⟨r, hr, rfl, hv, hf, Or.inl ⟨by rw [hp]; decide, rfl, hq⟩⟩

/-! ## Concrete cases -/

/-- Some rows of the table. -/
def rowsA : List Row :=
  [⟨"Type", .plain, ⟨"classification", false⟩, .root, false, false⟩, ⟨"Proba", .obj, ⟨"classification", false⟩, .root, false, false⟩,
    ⟨"LogZPdfNative", .plain, ⟨"pdf", false⟩, .object, false, false⟩, ⟨"LinemeasRedshift", .plain, ⟨"linemeas_parameters", false⟩, .object, false, false⟩,
    ⟨"LinemeasLineFlux", .plain, ⟨"linemeas", false⟩, .object, false, false⟩, ⟨"WarningFlags", .meth, ⟨"warningFlag", false⟩, .method, false, false⟩,
    ⟨"Redshift", .plain, ⟨"model_parameters", false⟩, .candidate, false, false⟩, ⟨"SubType", .plain, ⟨"model_parameters", false⟩, .candidate, false, false⟩,
    ⟨"FirstpassRedshift", .plain, ⟨"model_parameters", false⟩, .candidate, true, true⟩, ⟨"ModelFlux", .plain, ⟨"model", true⟩, .candidate, false, false⟩,
    ⟨"PhotometricModel", .band, ⟨"PhotometricModel", false⟩, .candidate, false, false⟩]

/-- A session with these rows; the observations are those given. -/
def cfgA (obs : List String) : Cfg :=
  ⟨rowsA, true, ["galaxy"], fun _ => some "lineModelSolve", fun _ => some "lineMeasSolve", fun _ => false, obs, ["r"]⟩

/-- A result store which has everything where it is stored by the solvers, with a value telling the attribute; two candidates. -/
def srcA : Src (String × Option Nat) :=
  { has := fun q => q.row.name ≠ "SubType" && (if q.row.ds.base = "linemeas_parameters" || q.row.ds.base = "linemeas" then q.method == "lineMeasSolve" else true)
    get := fun q => (q.row.name, q.rank)
    hasDs := fun _ _ m d => if d = "linemeas_parameters" || d = "linemeas" then m == "lineMeasSolve" else if d = "pdf" then m == "lineModelSolve" else true
    hasCand := fun _ _ _ _ => true
    nb := fun _ _ => 2 }

/-- An output with the sub-types already there. -/
def outA : Out (String × Option Nat) :=
  ⟨fun _ => none, fun _ => upd (fun _ => none) "model_parameters" (.cands [upd (fun _ => none) "SubType" ("a", none), upd (fun _ => none) "SubType" ("b", none)]), false⟩

/-- `getAttribute` after the loading. -/
def got (c : Cfg) (ds a : String) (rank : Option Nat) : Option (Option (String × Option Nat)) :=
  (loadAll c srcA false outA).map fun w => getAttribute c srcA w "galaxy" ds a rank

theorem tableA : Table (cfgA ["a", "b"]) where
  names := by decide +kernel
  level := by decide +kernel
  band := by decide +kernel
  keys := by decide +kernel
  meth := by decide +kernel
  obs := by decide +kernel
  rootObj := by decide +kernel
  rootPlain := by decide +kernel

/-- The hypothesis on the former results. -/
theorem readyA : ∀ ot ∈ (cfgA ["a", "b"]).models, ∀ r ∈ (cfgA ["a", "b"]).rows, r.level = .candidate → ∀ o ∈ obsOf (cfgA ["a", "b"]) r.ds, ∀ m,
    (cfgA ["a", "b"]).zMethod ot = some m → Ready (srcA.nb ot m) (outA.objs ot (inst r.ds o)) := by
  intro ot hot r hr hl o ho m hz
  have : inst r.ds o = "model_parameters" ∨ inst r.ds o ≠ "model_parameters" := Classical.em _
  rcases this with e | e
  · rw [e]; exact Or.inr ⟨_, rfl, Or.inr rfl⟩
  · exact Or.inl (upd_ne (fun _ => none) _ e)

example : got (cfgA ["a", "b"]) "model_parameters" "Redshift" (some 1) = some (some ("Redshift", some 1)) ∧
    got (cfgA ["a", "b"]) "model_parameters" "SubType" (some 1) = some (some ("b", none)) ∧
    got (cfgA ["a", "b"]) "modelb" "ModelFlux" (some 0) = some (some ("ModelFlux", some 0)) ∧
    got (cfgA ["a", "b"]) "PhotometricModel" "r" (some 0) = some (some ("PhotometricModel", some 0)) ∧
    got (cfgA ["a", "b"]) "warningFlag" "lineMeasSolveWarningFlags" none = some (some ("WarningFlags", none)) ∧
    got (cfgA ["a", "b"]) "pdf" "LogZPdfNative" none = some (some ("LogZPdfNative", none)) := by decide +kernel

/-- The results of the line measurement are read in the stage `lineMeasSolver`, those of every other method in the stage `redshiftSolver`. -/
theorem C203_stage (m : String) :
    (m = "lineMeasSolve" → stageOf m = "lineMeasSolver") ∧ (m ≠ "lineMeasSolve" → stageOf m = "redshiftSolver") := by
  unfold stageOf
  split_ifs with h <;> simp [h]

/-- An observation named `_parameters`: the spectra of its models are put with the parameters of the candidates, the results of two datasets being mixed. -/
theorem C203_names_counterexample :
    got (cfgA ["_parameters"]) "model_parameters" "ModelFlux" (some 0) = some (some ("ModelFlux", some 0)) ∧
    got (cfgA ["_parameters"]) "model_parameters" "Redshift" (some 0) = some (some ("Redshift", some 0)) := by decide +kernel

/-- A dataset that both solvers of a model store: only the results of the second one are loaded. -/
theorem C203_methods_counterexample :
    got { cfgA [""] with rows := [⟨"A", .plain, ⟨"both", false⟩, .object, false, false⟩] } "both" "A" none = some (some ("A", none)) ∧
    (loadAll { cfgA [""] with rows := [⟨"A", .plain, ⟨"both", false⟩, .object, false, false⟩] } { srcA with has := fun q => q.method == "lineModelSolve" } false
      outA).map (fun w => getAttribute (cfgA [""]) srcA w "galaxy" "both" "A" none) = some none := by decide +kernel

/-- The parameters of the line measurement: they are loaded, but the result store is asked for them with the redshift solver. -/
theorem C204_linemeas_counterexample :
    got (cfgA ["a", "b"]) "linemeas_parameters" "LinemeasRedshift" none = some (some ("LinemeasRedshift", none)) ∧
    getAttribute (cfgA ["a", "b"]) srcA outA "galaxy" "linemeas_parameters" "LinemeasRedshift" none = none := by decide +kernel

/-- The warning flags of a method, which have no row with their name. -/
theorem C204_flags_counterexample :
    got (cfgA ["a", "b"]) "warningFlag" "lineMeasSolveWarningFlags" none = some (some ("WarningFlags", none)) ∧
    getAttribute (cfgA ["a", "b"]) srcA outA "galaxy" "warningFlag" "lineMeasSolveWarningFlags" none = none := by decide +kernel

/-- Without the extended results, those are still read in the result store. -/
theorem C204_extended_counterexample :
    got { cfgA ["a", "b"] with extended := false } "model_parameters" "FirstpassRedshift" (some 0) = some none ∧
    getAttribute { cfgA ["a", "b"] with extended := false } srcA outA "galaxy" "model_parameters" "FirstpassRedshift" (some 0) =
      some ("FirstpassRedshift", some 0) := by decide +kernel

/-- The hypotheses of `C203_loaded_partial`, `C204_object_partial` and `C204_candidate`. -/
example : ∃ w', loadAll (cfgA ["a", "b"]) srcA false outA = some w' ∧
    getAttribute (cfgA ["a", "b"]) srcA w' "galaxy" "pdf" "LogZPdfNative" none = getAttribute (cfgA ["a", "b"]) srcA outA "galaxy" "pdf" "LogZPdfNative" none ∧
    getAttribute (cfgA ["a", "b"]) srcA w' "galaxy" "model_parameters" "Redshift" (some 1) =
      getAttribute (cfgA ["a", "b"]) srcA outA "galaxy" "model_parameters" "Redshift" (some 1) := by
  obtain ⟨w', h, -, -, -⟩ := C203_loaded_partial tableA (by decide +kernel) srcA outA readyA
  refine ⟨w', h, ?_, ?_⟩
  · exact C204_object_partial tableA (by decide +kernel) srcA outA w' outA readyA h rfl "galaxy" (by decide +kernel)
      ⟨"LogZPdfNative", .plain, ⟨"pdf", false⟩, .object, false, false⟩ (by decide +kernel) rfl (Or.inl rfl) rfl rfl "lineModelSolve" (by decide +kernel)
      (by decide +kernel) (by decide +kernel) (by decide +kernel)
  · exact C204_candidate tableA (by decide +kernel) srcA outA w' outA readyA h rfl "galaxy" (by decide +kernel)
      ⟨"Redshift", .plain, ⟨"model_parameters", false⟩, .candidate, false, false⟩ (by decide +kernel) rfl (Or.inl rfl) rfl rfl (by decide +kernel)
      "lineModelSolve" rfl (by decide +kernel) (fun _ => rfl) rfl 1 (by decide +kernel) (by decide +kernel)

end OutLoad
end Amazed
