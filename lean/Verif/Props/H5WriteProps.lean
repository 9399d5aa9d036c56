import Verif.Model.H5Write
import Mathlib.Data.List.Basic
import Mathlib.Data.List.Nodup
import Mathlib.Tactic.SplitIfs
import Mathlib.Tactic.Common

/-!
# C208, C209: writing of the results
-/

set_option autoImplicit true
set_option linter.unusedVariables false
set_option linter.unusedSimpArgs false
namespace Amazed
namespace H5Write

/-! ## Specification -/

/-- The attribute `a` is at the path `p`, with the value `v`: as an attribute of the group, or as a column of a table; a scalar in a table is
repeated. -/
def Has (f : File V) (p : Path) (a : String) (v : Val V) : Prop :=
  .attr p a v ∈ f ∨ ∃ cols c, .table p cols ∈ f ∧ (a, c) ∈ cols ∧ (v = .array c ∨ ∃ s, v = .scalar s ∧ c ≠ [] ∧ ∀ x ∈ c, x = s)

/-- The candidates of a model have the same number in all its datasets. -/
def SameRanks (o : Out V) : Prop :=
  ∀ ot ∈ o.models, ∀ x l y l', (x, Ds.cands l) ∈ o.objs ot → (y, Ds.cands l') ∈ o.objs ot → l.length = l'.length

/-- A dataset of the results, with its place. -/
inductive Place (o : Out V) (id : String) : Path → Dict V → Prop
  | root (ds : String) (d : Dict V) (h : (ds, d) ∈ o.root) : Place o id [id, ds] d
  | rootError (stage : String) (d : Dict V) (hs : stage ∈ ["init", "classification", "load_result_store"]) (h : o.err none stage = some d) :
      Place o id [id, stage ++ "_error"] d
  | object (ot ds : String) (d : Dict V) (hi : o.err none "init" = none) (hm : ot ∈ o.models) (h : (ds, .dict d) ∈ o.objs ot)
      (he : o.excluded ot ds = false) : Place o id [id, ot, ds] d
  | error (ot stage : String) (d : Dict V) (hi : o.err none "init" = none) (hm : ot ∈ o.models)
      (hs : stage ∈ ["redshiftSolver", "linemeas_catalog_load", "lineMeasSolver", "reliabilitySolver", "subClassifSolver"])
      (h : o.err (some ot) stage = some d) : Place o id [id, ot, stage ++ "_error"] d
  | cand (ot ds : String) (l : List (Dict V)) (k : Nat) (d : Dict V) (hi : o.err none "init" = none) (hm : ot ∈ o.models) (hz : o.solver ot = true)
      (h : (ds, .cands l) ∈ o.objs ot) (he : o.excluded ot ds = false) (hk : l[k]? = some d) :
      Place o id [id, ot, "candidates", candName k, ds] d

/-- What is written for a dataset of candidates is dropped when its first attribute is an empty array. -/
def EmptyFirst (d : Dict V) : Prop := ∃ a r, d = (a, .array []) :: r

/-! ## What is written -/

/-- A group with attributes. -/
def leafE (p : Path) (d : Dict V) : List (Entry V) := .group p :: d.map fun a => .attr p a.1 a.2

/-- A table. -/
def tableE (p : Path) (d : Dict V) (n : Nat) : List (Entry V) := [.table p (d.map fun a => (a.1, column n a.2))]

/-- A dataset of a model. -/
def objDsE (o : Out V) (id ot : String) (x : String × Dict V) : List (Entry V) :=
  if o.excluded ot x.1 then [] else if 1 < size x.2 then tableE [id, ot, x.1] x.2 (size x.2) else leafE [id, ot, x.1] x.2

/-- A dataset of a candidate. -/
def candDsE (o : Out V) (id ot : String) (k : Nat) (x : String × List (Dict V)) : List (Entry V) :=
  if o.excluded ot x.1 then []
  else match x.2[k]? with
    | none => []
    | some d =>
      if size d = 0 then []
      else if size d = 1 then leafE [id, ot, "candidates", candName k, x.1] d
      else tableE [id, ot, "candidates", candName k, x.1] d (size d)

/-- A candidate. -/
def candE (o : Out V) (id ot : String) (k : Nat) : List (Entry V) :=
  .group [id, ot, "candidates", candName k] :: (lists o ot).flatMap (candDsE o id ot k)

/-- The candidates. -/
def candsE (o : Out V) (id ot : String) : List (Entry V) :=
  if 0 < nbCand o ot then
    if o.solver ot then .group [id, ot, "candidates"] :: (List.range (nbCand o ot)).flatMap (candE o id ot) else []
  else []

/-- An error. -/
def errE (o : Out V) (p : Path) (m : Option String) (stage : String) : List (Entry V) :=
  match o.err m stage with
  | none => []
  | some e => leafE (p ++ [stage ++ "_error"]) e

/-- A model. -/
def modelE (o : Out V) (id ot : String) : List (Entry V) :=
  .group [id, ot] :: ((dicts o ot).flatMap (objDsE o id ot) ++ (candsE o id ot ++ modelStages.flatMap (errE o [id, ot] (some ot))))

/-- All. -/
def allE (o : Out V) (id : String) : List (Entry V) :=
  .group [id] :: ((o.root.flatMap fun x => leafE [id, x.1] x.2) ++ (rootStages.flatMap (errE o [id] none) ++
    (if (o.err none "init").isSome then [] else o.models.flatMap (modelE o id))))

/-- A writing that goes well has added these. -/
def Adds (w : Wr V) (L : List (Entry V)) : Prop := ∀ f f', w f = (f', true) → f' = f ++ L

theorem adds_skip : Adds (skip : Wr V) [] := by
  intro f f' h; cases h; simp

theorem adds_seq {a b : Wr V} {L M : List (Entry V)} (ha : Adds a L) (hb : Adds b M) : Adds (seq a b) (L ++ M) := by
  intro f f' h
  unfold seq at h
  split_ifs at h with h1
  · rw [hb _ _ h, ha f (a f).1 (Prod.ext rfl h1), List.append_assoc]
  · rw [h] at h1; exact absurd rfl h1

theorem adds_forAll {A : Type} {l : List A} {g : A → Wr V} {L : A → List (Entry V)} (h : ∀ x ∈ l, Adds (g x) (L x)) :
    Adds (forAll l g) (l.flatMap L) := by
  induction l with
  | nil => exact adds_skip
  | cons x r ih =>
    rw [List.flatMap_cons]
    exact adds_seq (h x List.mem_cons_self) (ih fun y hy => h y (List.mem_cons_of_mem _ hy))

theorem adds_group (p : Path) : Adds (wGroup p : Wr V) [.group p] := by
  intro f f' h
  unfold wGroup at h
  by_cases hp : p ∈ paths f
  · rw [if_pos hp] at h; cases h
  · rw [if_neg hp] at h; cases h; rfl

theorem adds_attrs (p : Path) (d : Dict V) : Adds (wAttrs p d) (d.map fun a => .attr p a.1 a.2) := by
  intro f f' h; cases h; rfl

theorem adds_table (p : Path) (d : Dict V) (n : Nat) : Adds (wTable p d n) (tableE p d n) := by
  intro f f' h
  unfold wTable at h
  split_ifs at h
  · cases h; rfl
  · cases h

theorem adds_leaf (p : Path) (d : Dict V) : Adds (wLeaf p d) (leafE p d) := adds_seq (adds_group p) (adds_attrs p d)

theorem adds_objDs (o : Out V) (id ot : String) (x : String × Dict V) : Adds (wObjDs o id ot x) (objDsE o id ot x) := by
  unfold wObjDs objDsE
  split_ifs
  · exact adds_skip
  · exact adds_table _ _ _
  · exact adds_leaf _ _

theorem adds_candDs (o : Out V) (id ot : String) (k : Nat) (x : String × List (Dict V)) :
    Adds (wCandDs o id ot k x) (candDsE o id ot k x) := by
  unfold wCandDs candDsE
  by_cases he : o.excluded ot x.1 = true
  · rw [if_pos he, if_pos he]; exact adds_skip
  · rw [if_neg he, if_neg he]
    cases hx : x.2[k]? with
    | none => intro f f' h; cases h
    | some d =>
      dsimp only
      split_ifs
      · exact adds_skip
      · exact adds_leaf _ _
      · exact adds_table _ _ _

theorem adds_cands (o : Out V) (id ot : String) : Adds (if 0 < nbCand o ot then wCands o id ot else skip) (candsE o id ot) := by
  unfold candsE wCands
  split_ifs
  · exact adds_seq (adds_group _) (adds_forAll fun k _ => adds_seq (adds_group _) (adds_forAll fun x _ => adds_candDs o id ot k x))
  · exact adds_skip
  · exact adds_skip

theorem adds_err (o : Out V) (p : Path) (m : Option String) (st : String) : Adds (wErr o p m st) (errE o p m st) := by
  unfold wErr errE
  cases o.err m st with
  | none => exact adds_skip
  | some e => exact adds_leaf _ _

theorem adds_model (o : Out V) (id ot : String) : Adds (wModel o id ot) (modelE o id ot) :=
  adds_seq (adds_group _) (adds_seq (adds_forAll fun x _ => adds_objDs o id ot x) (adds_seq (adds_cands o id ot)
    (adds_forAll fun st _ => adds_err o _ _ st)))

theorem adds_write (o : Out V) (id : String) : Adds (write o id) (allE o id) := by
  refine adds_seq (adds_group _) (adds_seq (adds_forAll fun x _ => adds_leaf _ _) (adds_seq (adds_forAll fun st _ => adds_err o _ _ st) ?_))
  split_ifs
  · exact adds_skip
  · exact adds_forAll fun ot _ => adds_model o id ot

/-! ## Completeness -/

theorem has_leaf {f : File V} {p : Path} {d : Dict V} (h : ∀ e ∈ leafE p d, e ∈ f) {a : String × Val V} (ha : a ∈ d) : Has f p a.1 a.2 :=
  Or.inl (h _ (List.mem_cons_of_mem _ (List.mem_map.2 ⟨a, ha, rfl⟩)))

theorem has_table {f : File V} {p : Path} {d : Dict V} {n : Nat} (hn : n ≠ 0) (h : ∀ e ∈ tableE p d n, e ∈ f) {a : String × Val V} (ha : a ∈ d) :
    Has f p a.1 a.2 := by
  refine Or.inr ⟨_, column n a.2, h _ (List.mem_singleton.2 rfl), List.mem_map.2 ⟨a, ha, rfl⟩, ?_⟩
  cases hv : a.2 with
  | scalar v =>
    refine Or.inr ⟨v, rfl, ?_, fun x hx => List.eq_of_mem_replicate hx⟩
    intro h0
    have := congrArg List.length h0
    simp [column] at this
    exact hn this
  | array l => exact Or.inl rfl

theorem mem_dicts {o : Out V} {ot ds : String} {d : Dict V} : (ds, d) ∈ dicts o ot ↔ (ds, .dict d) ∈ o.objs ot := by
  unfold dicts
  rw [List.mem_filterMap]
  constructor
  · rintro ⟨⟨x, y⟩, h1, h2⟩
    cases y with
    | dict e => cases h2; exact h1
    | cands l => cases h2
  · intro h; exact ⟨_, h, rfl⟩

theorem mem_lists {o : Out V} {ot ds : String} {l : List (Dict V)} : (ds, l) ∈ lists o ot ↔ (ds, .cands l) ∈ o.objs ot := by
  unfold lists
  rw [List.mem_filterMap]
  constructor
  · rintro ⟨⟨x, y⟩, h1, h2⟩
    cases y with
    | dict e => cases h2
    | cands m => cases h2; exact h1
  · intro h; exact ⟨_, h, rfl⟩

theorem nbCand_eq {o : Out V} (hr : SameRanks o) {ot ds : String} (hm : ot ∈ o.models) {l : List (Dict V)} (h : (ds, .cands l) ∈ o.objs ot) :
    nbCand o ot = l.length := by
  unfold nbCand
  cases hl : lists o ot with
  | nil =>
    have := mem_lists.2 h
    rw [hl] at this; cases this
  | cons x t =>
    have : (x.1, x.2) ∈ lists o ot := by rw [hl]; exact List.mem_cons_self
    exact hr ot hm _ _ _ _ (mem_lists.1 this) h

theorem mem_errE {o : Out V} {p : Path} {m : Option String} {st : String} {d : Dict V} (h : o.err m st = some d) :
    errE o p m st = leafE (p ++ [st ++ "_error"]) d := by
  unfold errE
  rw [h]

/-- When the writing goes well, every attribute of every dataset and every error is in the file, at its place with its value, the candidates in
datasets whose first attribute is an empty array apart. -/
theorem C208_complete_partial (o : Out V) (hr : SameRanks o) (id : String) (f f' : File V) (h : write o id f = (f', true)) (p : Path) (d : Dict V)
    (hp : Place o id p d) (hd : ¬EmptyFirst d) (a : String × Val V) (ha : a ∈ d) : Has f' p a.1 a.2 := by
  have hf := adds_write o id f f' h
  have hall : ∀ e ∈ allE o id, e ∈ f' := by intro e he; rw [hf]; exact List.mem_append_right _ he
  have hmodel : o.err none "init" = none → ∀ ot ∈ o.models, ∀ e ∈ modelE o id ot, e ∈ f' := by
    intro hi ot hm e he
    refine hall _ (List.mem_cons_of_mem _ (List.mem_append_right _ (List.mem_append_right _ ?_)))
    rw [hi, if_neg (by simp)]
    exact List.mem_flatMap.2 ⟨ot, hm, he⟩
  cases hp with
  | root ds d h1 =>
    exact has_leaf (fun e he => hall e (List.mem_cons_of_mem _ (List.mem_append_left _ (List.mem_flatMap.2 ⟨_, h1, he⟩)))) ha
  | rootError st d hs h1 =>
    refine has_leaf (fun e he => hall e (List.mem_cons_of_mem _ (List.mem_append_right _ (List.mem_append_left _
      (List.mem_flatMap.2 ⟨st, hs, ?_⟩))))) ha
    rw [mem_errE h1]; exact he
  | object ot ds d hi hm h1 he0 =>
    have h2 : ∀ e ∈ objDsE o id ot (ds, d), e ∈ f' := fun e he =>
      hmodel hi ot hm e (List.mem_cons_of_mem _ (List.mem_append_left _ (List.mem_flatMap.2 ⟨_, mem_dicts.2 h1, he⟩)))
    unfold objDsE at h2
    rw [if_neg (by rw [he0]; decide)] at h2
    split_ifs at h2 with hs
    · exact has_table (by have hs' : 1 < size d := hs; omega) h2 ha
    · exact has_leaf h2 ha
  | error ot st d hi hm hs h1 =>
    refine has_leaf (fun e he => hmodel hi ot hm e (List.mem_cons_of_mem _ (List.mem_append_right _ (List.mem_append_right _
      (List.mem_flatMap.2 ⟨st, hs, ?_⟩))))) ha
    rw [mem_errE h1]; exact he
  | cand ot ds l k d hi hm hz h1 he0 hk =>
    have hlt : k < l.length := by
      apply Classical.byContradiction
      intro hn
      rw [List.getElem?_eq_none (by omega)] at hk; cases hk
    have hnb := nbCand_eq hr hm h1
    have h2 : ∀ e ∈ candDsE o id ot k (ds, l), e ∈ f' := by
      intro e he
      refine hmodel hi ot hm e (List.mem_cons_of_mem _ (List.mem_append_right _ (List.mem_append_left _ ?_)))
      unfold candsE
      rw [if_pos (by omega), if_pos hz]
      exact List.mem_cons_of_mem _ (List.mem_flatMap.2 ⟨k, List.mem_range.2 (by omega),
        List.mem_cons_of_mem _ (List.mem_flatMap.2 ⟨_, mem_lists.2 h1, he⟩)⟩)
    unfold candDsE at h2
    rw [if_neg (by rw [he0]; decide)] at h2
    dsimp only at h2
    rw [hk] at h2
    dsimp only at h2
    have hs0 : size d ≠ 0 := by
      intro h0
      cases d with
      | nil => cases ha
      | cons b r =>
        obtain ⟨x, v⟩ := b
        cases v with
        | scalar v => cases h0
        | array m =>
          have : m = [] := List.length_eq_zero_iff.1 h0
          subst this
          exact hd ⟨x, r, rfl⟩
    rw [if_neg hs0] at h2
    split_ifs at h2 with hs
    · exact has_leaf h2 ha
    · exact has_table hs0 h2 ha

/-! ## Nothing else -/

/-- An entry comes from a dataset. -/
def From (o : Out V) (id : String) (e : Entry V) : Prop :=
  (∃ p, e = .group p) ∨ ∃ p d, Place o id p d ∧ ((∃ a ∈ d, e = .attr p a.1 a.2) ∨ ∃ n, 1 < n ∧ e = .table p (d.map fun a => (a.1, column n a.2)))

theorem from_leaf {o : Out V} {id : String} {p : Path} {d : Dict V} (hp : Place o id p d) {e : Entry V} (h : e ∈ leafE p d) : From o id e := by
  rcases List.mem_cons.1 h with h | h
  · exact Or.inl ⟨p, h⟩
  · obtain ⟨a, ha, rfl⟩ := List.mem_map.1 h
    exact Or.inr ⟨p, d, hp, Or.inl ⟨a, ha, rfl⟩⟩

theorem from_table {o : Out V} {id : String} {p : Path} {d : Dict V} {n : Nat} (hn : 1 < n) (hp : Place o id p d) {e : Entry V}
    (h : e ∈ tableE p d n) : From o id e := Or.inr ⟨p, d, hp, Or.inr ⟨n, hn, List.mem_singleton.1 h⟩⟩

theorem errE_from {o : Out V} {p : Path} {m : Option String} {st : String} {e : Entry V} (h : e ∈ errE o p m st) :
    ∃ d, o.err m st = some d ∧ e ∈ leafE (p ++ [st ++ "_error"]) d := by
  unfold errE at h
  cases hd : o.err m st with
  | none => rw [hd] at h; cases h
  | some d => rw [hd] at h; exact ⟨d, rfl, h⟩

/-- Everything in the file was there before or comes from a dataset of the results, at its place; what was there stays. -/
theorem C208_exact (o : Out V) (id : String) (f f' : File V) (h : write o id f = (f', true)) :
    f <+: f' ∧ ∀ e ∈ f', e ∈ f ∨ From o id e := by
  have hf := adds_write o id f f' h
  refine ⟨⟨_, hf.symm⟩, ?_⟩
  intro e he
  rw [hf] at he
  rcases List.mem_append.1 he with he | he
  · exact Or.inl he
  · right
    rcases List.mem_cons.1 he with he | he
    · exact Or.inl ⟨_, he⟩
    rcases List.mem_append.1 he with he | he
    · obtain ⟨x, hx, h1⟩ := List.mem_flatMap.1 he
      exact from_leaf (Place.root x.1 x.2 hx) h1
    rcases List.mem_append.1 he with he | he
    · obtain ⟨st, hst, h1⟩ := List.mem_flatMap.1 he
      obtain ⟨d, h2, h3⟩ := errE_from h1
      exact from_leaf (Place.rootError st d hst h2) h3
    · split_ifs at he with hi
      · cases he
      have hi' : o.err none "init" = none := by simpa using hi
      obtain ⟨ot, hm, h1⟩ := List.mem_flatMap.1 he
      rcases List.mem_cons.1 h1 with h1 | h1
      · exact Or.inl ⟨_, h1⟩
      rcases List.mem_append.1 h1 with h1 | h1
      · obtain ⟨x, hx, h2⟩ := List.mem_flatMap.1 h1
        unfold objDsE at h2
        split_ifs at h2 with h3 h4
        · cases h2
        · exact from_table h4 (Place.object ot x.1 x.2 hi' hm (mem_dicts.1 hx) (by simpa using h3)) h2
        · exact from_leaf (Place.object ot x.1 x.2 hi' hm (mem_dicts.1 hx) (by simpa using h3)) h2
      rcases List.mem_append.1 h1 with h1 | h1
      · unfold candsE at h1
        split_ifs at h1 with h2 h3
        · rcases List.mem_cons.1 h1 with h1 | h1
          · exact Or.inl ⟨_, h1⟩
          obtain ⟨k, hk, h4⟩ := List.mem_flatMap.1 h1
          rcases List.mem_cons.1 h4 with h4 | h4
          · exact Or.inl ⟨_, h4⟩
          obtain ⟨x, hx, h5⟩ := List.mem_flatMap.1 h4
          unfold candDsE at h5
          by_cases he0 : o.excluded ot x.1 = true
          · rw [if_pos he0] at h5; cases h5
          · rw [if_neg he0] at h5
            cases hd : x.2[k]? with
            | none => rw [hd] at h5; cases h5
            | some d =>
              rw [hd] at h5
              dsimp only at h5
              have hp := Place.cand (id := id) ot x.1 x.2 k d hi' hm h3 (mem_lists.1 hx) (by simpa using he0) hd
              split_ifs at h5 with h6 h7
              · cases h5
              · exact from_leaf hp h5
              · exact from_table (by omega) hp h5
        · cases h1
        · cases h1
      · obtain ⟨st, hst, h2⟩ := List.mem_flatMap.1 h1
        obtain ⟨d, h3, h4⟩ := errE_from h2
        exact from_leaf (Place.error ot st d hi' hm hst h3) h4

/-! ## Once, and whatever happens -/

/-- A path is used once, and an attribute of a group has one value. -/
def Clean (f : File V) : Prop :=
  (paths f).Nodup ∧ (∀ p a v, .attr p a v ∈ f → p ∈ paths f) ∧ ∀ p a v v', .attr p a v ∈ f → .attr p a v' ∈ f → v = v'

/-- A writing, gone well or not, keeps a file clean and what it has. -/
def Keeps (w : Wr V) : Prop := ∀ f, Clean f → Clean (w f).1 ∧ f <+: (w f).1

theorem keeps_skip : Keeps (skip : Wr V) := fun f h => ⟨h, List.prefix_refl f⟩

theorem keeps_fail : Keeps (fun f => (f, false) : Wr V) := fun f h => ⟨h, List.prefix_refl f⟩

theorem keeps_seq {a b : Wr V} (ha : Keeps a) (hb : Keeps b) : Keeps (seq a b) := by
  intro f h
  unfold seq
  split_ifs with h1
  · exact ⟨(hb _ (ha f h).1).1, (ha f h).2.trans (hb _ (ha f h).1).2⟩
  · exact ha f h

theorem keeps_forAll {A : Type} {l : List A} {g : A → Wr V} (h : ∀ x ∈ l, Keeps (g x)) : Keeps (forAll l g) := by
  induction l with
  | nil => exact keeps_skip
  | cons x r ih => exact keeps_seq (h x List.mem_cons_self) (ih fun y hy => h y (List.mem_cons_of_mem _ hy))

theorem paths_append (f g : File V) : paths (f ++ g) = paths f ++ paths g := List.filterMap_append

theorem clean_node {f : File V} (h : Clean f) {e : Entry V} {p : Path} (he : e.node = some p) (hp : p ∉ paths f) : Clean (f ++ [e]) := by
  have e1 : paths (f ++ [e]) = paths f ++ [p] := by rw [paths_append]; unfold paths; simp [he]
  have hna : ∀ q a v, Entry.attr q a v ∈ f ++ [e] → Entry.attr q a v ∈ f := by
    intro q a v hm
    rcases List.mem_append.1 hm with hm | hm
    · exact hm
    · rw [← List.mem_singleton.1 hm] at he; cases he
  refine ⟨?_, ?_, ?_⟩
  · rw [e1, List.nodup_append]
    exact ⟨h.1, by simp, by intro x hx y hy; rw [List.mem_singleton.1 hy]; rintro rfl; exact hp hx⟩
  · intro q a v hm
    rw [e1]
    exact List.mem_append_left _ (h.2.1 q a v (hna q a v hm))
  · intro q a v v' hm hm'
    exact h.2.2 q a v v' (hna q a v hm) (hna q a v' hm')

theorem keeps_group (p : Path) : Keeps (wGroup p : Wr V) := by
  intro f h
  unfold wGroup
  split_ifs with hp
  · exact ⟨h, List.prefix_refl f⟩
  · exact ⟨clean_node h rfl hp, List.prefix_append _ _⟩

theorem keeps_table (p : Path) (d : Dict V) (n : Nat) : Keeps (wTable p d n) := by
  intro f h
  unfold wTable
  split_ifs with hp
  · have hq : p ∉ paths f := by
      have := (Bool.and_eq_true_iff.1 hp).2
      simpa using this
    exact ⟨clean_node h rfl hq, List.prefix_append _ _⟩
  · exact ⟨h, List.prefix_refl f⟩

theorem keeps_leaf (p : Path) (d : Dict V) (hd : (d.map Prod.fst).Nodup) : Keeps (wLeaf p d) := by
  intro f h
  unfold wLeaf seq wGroup
  by_cases hp : p ∈ paths f
  · rw [if_pos hp, if_neg (by simp)]
    exact ⟨h, List.prefix_refl f⟩
  · rw [if_neg hp, if_pos rfl]
    dsimp only
    unfold wAttrs
    dsimp only
    have hc : Clean (f ++ [Entry.group p]) := clean_node h rfl hp
    have hno : ∀ a v, Entry.attr p a v ∉ f ++ [Entry.group p] := by
      intro a v hm
      rcases List.mem_append.1 hm with hm | hm
      · exact hp (h.2.1 p a v hm)
      · cases List.mem_singleton.1 hm
    have hpa : paths (d.map fun a => Entry.attr p a.1 a.2) = [] := by
      unfold paths
      rw [List.filterMap_map]
      exact List.filterMap_eq_nil_iff.2 fun a _ => rfl
    have hcase : ∀ q a v, Entry.attr q a v ∈ (f ++ [Entry.group p]) ++ (d.map fun a => Entry.attr p a.1 a.2) →
        Entry.attr q a v ∈ f ++ [Entry.group p] ∨ (q = p ∧ (a, v) ∈ d) := by
      intro q a v hm
      rcases List.mem_append.1 hm with hm | hm
      · exact Or.inl hm
      · obtain ⟨x, hx, e⟩ := List.mem_map.1 hm
        cases e
        exact Or.inr ⟨rfl, hx⟩
    refine ⟨⟨?_, ?_, ?_⟩, ?_⟩
    · rw [paths_append, hpa, List.append_nil]; exact hc.1
    · intro q a v hm
      rw [paths_append, hpa, List.append_nil]
      rcases hcase q a v hm with h1 | ⟨h1, -⟩
      · exact hc.2.1 q a v h1
      · rw [h1, paths_append]; exact List.mem_append_right _ (by simp [paths, Entry.node])
    · intro q a v v' hm hm'
      rcases hcase q a v hm with h1 | ⟨h1, h2⟩
      · rcases hcase q a v' hm' with g1 | ⟨g1, g2⟩
        · exact hc.2.2 q a v v' h1 g1
        · subst g1; exact absurd h1 (hno a v)
      · rcases hcase q a v' hm' with g1 | ⟨g1, g2⟩
        · subst h1; exact absurd g1 (hno a v')
        · exact congrArg Prod.snd (List.inj_on_of_nodup_map hd h2 g2 rfl)
    · rw [List.append_assoc]; exact List.prefix_append _ _

/-- The dictionaries have distinct keys. -/
def Keyed (o : Out V) : Prop :=
  (∀ x ∈ o.root, (x.2.map Prod.fst).Nodup) ∧ (∀ m st d, o.err m st = some d → (d.map Prod.fst).Nodup) ∧
    (∀ ot x d, (x, Ds.dict d) ∈ o.objs ot → (d.map Prod.fst).Nodup) ∧ ∀ ot x l, (x, Ds.cands l) ∈ o.objs ot → ∀ d ∈ l, (d.map Prod.fst).Nodup

theorem keeps_err {o : Out V} (hk : Keyed o) (p : Path) (m : Option String) (st : String) : Keeps (wErr o p m st) := by
  unfold wErr
  cases h : o.err m st with
  | none => exact keeps_skip
  | some e => exact keeps_leaf _ _ (hk.2.1 m st e h)

/-- Whatever happens, what was in the file stays, no path is used twice and no attribute has two values. -/
theorem C208_once (o : Out V) (hk : Keyed o) (id : String) : Keeps (write o id) := by
  refine keeps_seq (keeps_group _) (keeps_seq (keeps_forAll fun x hx => keeps_leaf _ _ (hk.1 x hx))
    (keeps_seq (keeps_forAll fun st _ => keeps_err hk _ _ st) ?_))
  split_ifs
  · exact keeps_skip
  · refine keeps_forAll fun ot _ => keeps_seq (keeps_group _) (keeps_seq (keeps_forAll fun x hx => ?_) (keeps_seq ?_
      (keeps_forAll fun st _ => keeps_err hk _ _ st)))
    · unfold wObjDs
      split_ifs
      · exact keeps_skip
      · exact keeps_table _ _ _
      · exact keeps_leaf _ _ (hk.2.2.1 ot x.1 x.2 (mem_dicts.1 hx))
    · unfold wCands
      split_ifs
      · refine keeps_seq (keeps_group _) (keeps_forAll fun k _ => keeps_seq (keeps_group _) (keeps_forAll fun x hx => ?_))
        unfold wCandDs
        by_cases he : o.excluded ot x.1 = true
        · rw [if_pos he]; exact keeps_skip
        · rw [if_neg he]
          cases hd : x.2[k]? with
          | none => exact keeps_fail
          | some d =>
            dsimp only
            split_ifs
            · exact keeps_skip
            · exact keeps_leaf _ _ (hk.2.2.2 ot x.1 x.2 (mem_lists.1 hx) d (List.mem_of_getElem? hd))
            · exact keeps_table _ _ _
      · exact keeps_skip
      · exact keeps_skip

/-! ## Success -/

/-- A writing goes well when the paths it uses are new and distinct. -/
def Goes (w : Wr V) (L : List (Entry V)) : Prop := ∀ f, (paths (f ++ L)).Nodup → w f = (f ++ L, true)

theorem goes_skip : Goes (skip : Wr V) [] := by
  intro f h; rw [List.append_nil]; rfl

theorem goes_seq {a b : Wr V} {L M : List (Entry V)} (ha : Goes a L) (hb : Goes b M) : Goes (seq a b) (L ++ M) := by
  intro f h
  rw [← List.append_assoc] at h
  have h1 : (paths (f ++ L)).Nodup := by
    rw [paths_append] at h
    exact (List.nodup_append.1 h).1
  unfold seq
  rw [ha f h1, if_pos rfl, hb _ h, List.append_assoc]

theorem goes_forAll {A : Type} {l : List A} {g : A → Wr V} {L : A → List (Entry V)} (h : ∀ x ∈ l, Goes (g x) (L x)) :
    Goes (forAll l g) (l.flatMap L) := by
  induction l with
  | nil => exact goes_skip
  | cons x r ih =>
    rw [List.flatMap_cons]
    exact goes_seq (h x List.mem_cons_self) (ih fun y hy => h y (List.mem_cons_of_mem _ hy))

theorem goes_new {f : File V} {e : Entry V} {p : Path} (he : e.node = some p) (h : (paths (f ++ [e])).Nodup) : p ∉ paths f := by
  have e1 : paths (f ++ [e]) = paths f ++ [p] := by rw [paths_append]; unfold paths; simp [he]
  rw [e1, List.nodup_append] at h
  intro hp
  exact h.2.2 p hp p List.mem_cons_self rfl

theorem goes_group (p : Path) : Goes (wGroup p : Wr V) [.group p] := by
  intro f h
  unfold wGroup
  rw [if_neg (goes_new rfl h)]

theorem goes_attrs (p : Path) (d : Dict V) : Goes (wAttrs p d) (d.map fun a => .attr p a.1 a.2) := fun f h => rfl

theorem goes_leaf (p : Path) (d : Dict V) : Goes (wLeaf p d) (leafE p d) := goes_seq (goes_group p) (goes_attrs p d)

/-- The arrays of a dictionary whose first value is an array of more than one element have the same length. -/
def Rect (d : Dict V) : Prop := 1 < size d → ∀ a ∈ d, ∀ l, a.2 = .array l → l.length = size d

theorem goes_table (p : Path) (d : Dict V) (hs : 1 < size d) (hr : Rect d) : Goes (wTable p d (size d)) (tableE p d (size d)) := by
  intro f h
  unfold wTable
  rw [if_pos]
  · rfl
  · rw [Bool.and_eq_true_iff]
    constructor
    · rw [List.all_eq_true]
      intro a ha
      cases hv : a.2 with
      | scalar v => simp [column]
      | array l => simp [column, hr hs a ha l hv]
    · have := goes_new (p := p) rfl h
      simpa using this

theorem goes_err (o : Out V) (p : Path) (m : Option String) (st : String) : Goes (wErr o p m st) (errE o p m st) := by
  unfold wErr errE
  cases o.err m st with
  | none => exact goes_skip
  | some e => exact goes_leaf _ _

/-- The writing goes well when the paths are new and distinct, the tables have columns of the same length, and the candidates the same number in all the
datasets. -/
theorem C209_succeeds (o : Out V) (hr : SameRanks o) (hd : ∀ ot ∈ o.models, ∀ x d, (x, Ds.dict d) ∈ o.objs ot → Rect d)
    (hc : ∀ ot ∈ o.models, ∀ x l, (x, Ds.cands l) ∈ o.objs ot → ∀ d ∈ l, Rect d) (id : String) (f : File V) (hp : (paths (f ++ allE o id)).Nodup) :
    write o id f = (f ++ allE o id, true) := by
  refine goes_seq (L := [.group [id]]) (goes_group _) (goes_seq (goes_forAll fun x _ => goes_leaf _ _)
    (goes_seq (goes_forAll fun st _ => goes_err o _ _ st) ?_)) f hp
  split_ifs
  · exact goes_skip
  · refine goes_forAll fun ot hm => goes_seq (L := [.group [id, ot]]) (goes_group _) (goes_seq (goes_forAll fun x hx => ?_) (goes_seq ?_
      (goes_forAll fun st _ => goes_err o _ _ st)))
    · unfold wObjDs objDsE
      split_ifs with h1 h2
      · exact goes_skip
      · exact goes_table _ _ h2 (hd ot hm x.1 x.2 (mem_dicts.1 hx))
      · exact goes_leaf _ _
    · unfold wCands candsE
      split_ifs
      · refine goes_seq (L := [.group [id, ot, "candidates"]]) (goes_group _) (goes_forAll fun k hk =>
          goes_seq (L := [.group [id, ot, "candidates", candName k]]) (goes_group _) (goes_forAll fun x hx => ?_))
        unfold wCandDs candDsE
        by_cases he : o.excluded ot x.1 = true
        · rw [if_pos he, if_pos he]; exact goes_skip
        · rw [if_neg he, if_neg he]
          have hlen := nbCand_eq hr hm (mem_lists.1 hx)
          have hk' := List.mem_range.1 hk
          have hlt : k < x.2.length := by omega
          rw [List.getElem?_eq_getElem hlt]
          dsimp only
          split_ifs with h1 h2
          · exact goes_skip
          · exact goes_leaf _ _
          · exact goes_table _ _ (by omega) (hc ot hm x.1 x.2 (mem_lists.1 hx) _ (List.getElem_mem hlt))
      · exact goes_skip
      · exact goes_skip

/-- A second writing with the same identifier fails, whatever the first one did. -/
theorem C209_again (o o' : Out V) (id : String) (f : File V) : (write o' id (write o id f).1).2 = false := by
  have hmem : [id] ∈ paths (write o id f).1 := by
    have hpre : ∀ (w : Wr V), (∀ g, g <+: (w g).1) → ∀ g, [id] ∈ paths g → [id] ∈ paths (w g).1 := by
      intro w hw g hg
      obtain ⟨t, ht⟩ := hw g
      rw [← ht, paths_append]
      exact List.mem_append_left _ hg
    have key : ∀ g, g <+: (seq (wRoot o id) (seq (forAll rootStages (wErr o [id] none))
        (if (o.err none "init").isSome then skip else forAll o.models (wModel o id))) g).1 := by
      have gskip : ∀ g : File V, g <+: (skip g).1 := fun g => List.prefix_refl g
      have gseq : ∀ a b : Wr V, (∀ g, g <+: (a g).1) → (∀ g, g <+: (b g).1) → ∀ g, g <+: (seq a b g).1 := by
        intro a b ha hb g
        unfold seq
        split_ifs
        · exact (ha g).trans (hb _)
        · exact ha g
      have gall : ∀ {A : Type} (l : List A) (w : A → Wr V), (∀ x g, g <+: (w x g).1) → ∀ g, g <+: (forAll l w g).1 := by
        intro A l w hw
        induction l with
        | nil => exact gskip
        | cons x r ih => exact gseq _ _ (hw x) ih
      have ggroup : ∀ (p : Path) (g : File V), g <+: (wGroup p g).1 := by
        intro p g
        unfold wGroup
        split_ifs
        · exact List.prefix_refl g
        · exact List.prefix_append _ _
      have gleaf : ∀ (p : Path) (d : Dict V) (g : File V), g <+: (wLeaf p d g).1 :=
        fun p d => gseq _ _ (ggroup p) fun g => List.prefix_append _ _
      have gtable : ∀ (p : Path) (d : Dict V) (n : Nat) (g : File V), g <+: (wTable p d n g).1 := by
        intro p d n g
        unfold wTable
        split_ifs
        · exact List.prefix_append _ _
        · exact List.prefix_refl g
      have gerr : ∀ (p : Path) (m : Option String) (st : String) (g : File V), g <+: (wErr o p m st g).1 := by
        intro p m st g
        unfold wErr
        cases o.err m st with
        | none => exact gskip g
        | some e => exact gleaf _ _ g
      refine gseq _ _ (gall _ _ fun x => gleaf _ _) (gseq _ _ (gall _ _ fun st => gerr _ _ st) ?_)
      split_ifs
      · exact gskip
      · refine gall _ _ fun ot => gseq _ _ (ggroup _) (gseq _ _ (gall _ _ fun x => ?_) (gseq _ _ ?_ (gall _ _ fun st => gerr _ _ st)))
        · unfold wObjDs
          split_ifs
          · exact gskip
          · exact gtable _ _ _
          · exact gleaf _ _
        · unfold wCands
          split_ifs
          · refine gseq _ _ (ggroup _) (gall _ _ fun k => gseq _ _ (ggroup _) (gall _ _ fun x => ?_))
            unfold wCandDs
            by_cases he : o.excluded ot x.1 = true
            · rw [if_pos he]; exact gskip
            · rw [if_neg he]
              cases x.2[k]? with
              | none => exact fun g => List.prefix_refl g
              | some d =>
                dsimp only
                split_ifs
                · exact gskip
                · exact gleaf _ _
                · exact gtable _ _ _
          · exact gskip
          · exact gskip
    unfold write
    show [id] ∈ paths (seq (wGroup [id]) _ f).1
    unfold seq
    unfold wGroup
    by_cases h : [id] ∈ paths f
    · rw [if_pos h, if_neg (by simp)]; exact h
    · rw [if_neg h, if_pos rfl]
      refine hpre _ key _ ?_
      rw [paths_append]
      exact List.mem_append_right _ (by simp [paths, Entry.node])
  generalize (write o id f).1 = g at hmem
  unfold write seq wGroup
  rw [if_pos hmem, if_neg (by simp)]

/-! ## Concrete cases -/

/-- Results of a galaxy model with two candidates. -/
def outA : Out Nat :=
  { root := [("classification", [("Type", .scalar 1)])]
    err := fun m st => if m = some "galaxy" ∧ st = "lineMeasSolver" then some [("code", .scalar 7)] else none
    models := ["galaxy"]
    objs := fun _ => [("pdf", .dict [("LogZPdfNative", .array [1, 2, 3])]), ("pdf_params", .dict [("zmin", .array [0]), ("zmax", .array [9])]),
      ("model_parameters", .cands [[("Redshift", .scalar 4)], [("Redshift", .scalar 5)]]),
      ("model", .cands [[("Lambda", .array [1, 2]), ("Flux", .array [3, 4])], [("Lambda", .array [1, 2]), ("Flux", .array [5, 6])]])]
    solver := fun _ => true
    excluded := fun _ _ => false }

example : write outA "s" [] =
    ([.group ["s"], .group ["s", "classification"], .attr ["s", "classification"] "Type" (.scalar 1), .group ["s", "galaxy"],
      .table ["s", "galaxy", "pdf"] [("LogZPdfNative", [1, 2, 3])],
      .group ["s", "galaxy", "pdf_params"], .attr ["s", "galaxy", "pdf_params"] "zmin" (.array [0]),
      .attr ["s", "galaxy", "pdf_params"] "zmax" (.array [9]), .group ["s", "galaxy", "candidates"],
      .group ["s", "galaxy", "candidates", "candidateA"], .group ["s", "galaxy", "candidates", "candidateA", "model_parameters"],
      .attr ["s", "galaxy", "candidates", "candidateA", "model_parameters"] "Redshift" (.scalar 4),
      .table ["s", "galaxy", "candidates", "candidateA", "model"] [("Lambda", [1, 2]), ("Flux", [3, 4])],
      .group ["s", "galaxy", "candidates", "candidateB"], .group ["s", "galaxy", "candidates", "candidateB", "model_parameters"],
      .attr ["s", "galaxy", "candidates", "candidateB", "model_parameters"] "Redshift" (.scalar 5),
      .table ["s", "galaxy", "candidates", "candidateB", "model"] [("Lambda", [1, 2]), ("Flux", [5, 6])],
      .group ["s", "galaxy", "lineMeasSolver_error"], .attr ["s", "galaxy", "lineMeasSolver_error"] "code" (.scalar 7)], true) := by
  decide +kernel

theorem objsA {ot x : String} {y : Ds Nat} (h : (x, y) ∈ outA.objs ot) :
    y = .dict [("LogZPdfNative", .array [1, 2, 3])] ∨ y = .dict [("zmin", .array [0]), ("zmax", .array [9])] ∨
    y = .cands [[("Redshift", .scalar 4)], [("Redshift", .scalar 5)]] ∨
    y = .cands [[("Lambda", .array [1, 2]), ("Flux", .array [3, 4])], [("Lambda", .array [1, 2]), ("Flux", .array [5, 6])]] := by
  simp [outA] at h
  rcases h with ⟨-, h⟩ | ⟨-, h⟩ | ⟨-, h⟩ | ⟨-, h⟩
  · exact Or.inl h
  · exact Or.inr (Or.inl h)
  · exact Or.inr (Or.inr (Or.inl h))
  · exact Or.inr (Or.inr (Or.inr h))

theorem rect_of {d : Dict V} (h : ∀ a ∈ d, ∀ l, a.2 = .array l → l.length = size d) : Rect d := fun _ => h

/-- The hypotheses of `C208_complete_partial`, `C208_once` and `C209_succeeds`. -/
example : SameRanks outA ∧ Keyed outA ∧ (∀ ot ∈ outA.models, ∀ x d, (x, Ds.dict d) ∈ outA.objs ot → Rect d) ∧
    (∀ ot ∈ outA.models, ∀ x l, (x, Ds.cands l) ∈ outA.objs ot → ∀ d ∈ l, Rect d) ∧ (paths ([] ++ allE outA "s")).Nodup ∧
    Place outA "s" ["s", "galaxy", "candidates", candName 1, "model_parameters"] [("Redshift", .scalar 5)] := by
  refine ⟨?_, ⟨by decide +kernel, ?_, ?_, ?_⟩, ?_, ?_, by decide +kernel, ?_⟩
  · intro ot hm x l y l' h h'
    rcases objsA h with e | e | e | e <;> cases e <;> rcases objsA h' with e | e | e | e <;> cases e <;> rfl
  · intro m st d h
    simp only [outA] at h
    split_ifs at h
    cases h
    decide
  · intro ot x d h
    rcases objsA h with e | e | e | e <;> cases e <;> decide
  · intro ot x l h
    rcases objsA h with e | e | e | e <;> cases e <;> decide
  · intro ot hm x d h
    rcases objsA h with e | e | e | e <;> cases e <;> simp [Rect, size]
  · intro ot hm x l h
    rcases objsA h with e | e | e | e <;> cases e
    · simp [Rect, size]
    · simp only [Rect, size, List.mem_cons, List.not_mem_nil, or_false, forall_eq_or_imp, forall_eq]
      refine ⟨fun _ => ⟨?_, ?_⟩, fun _ => ⟨?_, ?_⟩⟩ <;> (intro l e; cases e; rfl)
  · exact Place.cand "galaxy" "model_parameters" [[("Redshift", .scalar 4)], [("Redshift", .scalar 5)]] 1 _ (by decide +kernel) (by decide +kernel) rfl
      (by simp [outA]) rfl rfl

/-- A candidate dataset whose first attribute is an empty array is dropped, with its other attributes. -/
theorem C208_empty_counterexample :
    write { outA with objs := fun _ => [("a", .cands [[("x", .array []), ("y", .scalar 3)]])], err := fun _ _ => none, root := [] } "s" [] =
      ([.group ["s"], .group ["s", "galaxy"], .group ["s", "galaxy", "candidates"], .group ["s", "galaxy", "candidates", "candidateA"]], true) := by
  decide +kernel

/-- The first dataset of candidates has none: those of the others are not written, and nothing tells it. -/
theorem C208_first_counterexample :
    write { outA with objs := fun _ => [("a", .cands []), ("b", .cands [[("y", .scalar 3)]])], err := fun _ _ => none, root := [] } "s" [] =
      ([.group ["s"], .group ["s", "galaxy"]], true) := by decide +kernel

/-- A table whose columns have not the same length: the models after it are not written, and the spectrum cannot be written again. -/
theorem C209_columns_counterexample :
    write { outA with models := ["a", "b"], objs := fun m => if m = "a" then [("t", .dict [("x", .array [1, 2]), ("y", .array [1])])] else
      [("u", .dict [("z", .scalar 3)])], err := fun _ _ => none, root := [] } "s" [] = ([.group ["s"], .group ["s", "a"]], false) ∧
    write outA "s" [.group ["s"], .group ["s", "a"]] = ([.group ["s"], .group ["s", "a"]], false) := by decide +kernel

end H5Write
end Amazed
