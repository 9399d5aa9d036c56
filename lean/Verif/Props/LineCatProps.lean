import Verif.Model.LineCat
import Verif.Props.EltListProps
import Verif.Props.AmpProps
import Mathlib.Data.List.Perm.Basic
import Mathlib.Algebra.Field.Rat

set_option linter.unusedVariables false
set_option linter.unusedSectionVars false

/-! # Line catalogues and elements (C78, C79) -/

namespace Amazed
namespace LineCat
open Amp (LType Force)

/-! ## Maps -/

section maps
variable {G V : Type} [LinearOrder G]

/-- The entries are in the strict order of the keys. -/
def Keyed (m : List (G × V)) : Prop := m.Pairwise fun a b => a.1 < b.1

theorem mapPut_keys (k : G) (v : V) : ∀ (m : List (G × V)) (x : G × V), x ∈ mapPut k v m → x = (k, v) ∨ x ∈ m := by
  intro m
  induction m with
  | nil => intro x hx; simpa [mapPut] using hx
  | cons y m ih =>
    intro x hx
    unfold mapPut at hx
    split at hx
    · rcases List.mem_cons.1 hx with h | h
      · exact Or.inl h
      · exact Or.inr h
    · split at hx
      · rcases List.mem_cons.1 hx with h | h
        · exact Or.inl h
        · exact Or.inr (List.mem_cons_of_mem _ h)
      · rcases List.mem_cons.1 hx with h | h
        · exact Or.inr (by rw [h]; exact List.mem_cons_self)
        · rcases ih x h with h | h
          · exact Or.inl h
          · exact Or.inr (List.mem_cons_of_mem _ h)

theorem mapPut_keyed (k : G) (v : V) : ∀ (m : List (G × V)), Keyed m → Keyed (mapPut k v m) := by
  intro m
  induction m with
  | nil => intro _; simp [mapPut, Keyed]
  | cons y m ih =>
    intro h
    have h' := List.pairwise_cons.1 h
    unfold mapPut
    split
    · rename_i hk
      refine List.pairwise_cons.2 ⟨fun x hx => ?_, h⟩
      rcases List.mem_cons.1 hx with e | e
      · rw [e]; exact hk
      · exact lt_trans hk (h'.1 x e)
    · split
      · rename_i hk
        exact List.pairwise_cons.2 ⟨fun x hx => by rw [hk]; exact h'.1 x hx, h'.2⟩
      · rename_i h1 h2
        refine List.pairwise_cons.2 ⟨fun x hx => ?_, ih h'.2⟩
        rcases mapPut_keys k v m x hx with e | e
        · rw [e]; exact lt_of_le_of_ne (not_lt.1 h1) (fun h => h2 h.symm)
        · exact h'.1 x e

theorem mapFind_put (k : G) (v : V) (q : G) : ∀ (m : List (G × V)), mapFind q (mapPut k v m) = if q = k then some v else mapFind q m := by
  intro m
  induction m with
  | nil => unfold mapPut mapFind; split <;> simp_all [mapFind]
  | cons y m ih =>
    unfold mapPut
    split
    · rw [mapFind]
    · split
      · rename_i hk
        unfold mapFind
        split
        · rfl
        · rename_i hq; rw [if_neg (by rw [← hk]; exact hq)]
      · rename_i h1 h2
        rw [mapFind, ih, mapFind]
        by_cases hq : q = y.1
        · rw [if_pos hq, if_pos hq, if_neg (by rw [hq]; exact fun h => h2 h.symm)]
        · rw [if_neg hq, if_neg hq]

theorem mapFind_mem {m : List (G × V)} (h : Keyed m) (k : G) (v : V) : mapFind k m = some v ↔ (k, v) ∈ m := by
  induction m with
  | nil => simp [mapFind]
  | cons y m ih =>
    have h' := List.pairwise_cons.1 h
    unfold mapFind
    split
    · rename_i hk
      constructor
      · intro e
        rw [Option.some.injEq] at e
        exact List.mem_cons.2 (Or.inl (by rw [hk, ← e]))
      · intro e
        rcases List.mem_cons.1 e with e | e
        · rw [← e]
        · exact absurd (h'.1 _ e) (by simp [hk])
    · rename_i hk
      rw [ih h'.2, List.mem_cons]
      constructor
      · exact Or.inr
      · rintro (e | e)
        · exact absurd (by rw [← e]) hk
        · exact e

theorem mapPut_append (k : G) (v : V) : ∀ (m : List (G × V)), (∀ x ∈ m, x.1 < k) → mapPut k v m = m ++ [(k, v)] := by
  intro m
  induction m with
  | nil => intro _; rfl
  | cons y m ih =>
    intro h
    have hy := h y (by simp)
    unfold mapPut
    rw [if_neg (not_lt.2 hy.le), if_neg hy.ne', ih fun x hx => h x (by simp [hx])]
    rfl

theorem keyed_ext {m m' : List (G × V)} (h : Keyed m) (h' : Keyed m') (he : ∀ k, mapFind k m = mapFind k m') : m = m' := by
  refine List.Perm.eq_of_pairwise (le := fun (a b : G × V) => a.1 < b.1) (fun a b _ _ h1 h2 => absurd (lt_trans h1 h2) (lt_irrefl _)) h h' ?_
  refine (List.perm_ext_iff_of_nodup ?_ ?_).2 fun x => ?_
  · exact h.imp fun h e => absurd h (by rw [e]; exact lt_irrefl _)
  · exact h'.imp fun h e => absurd h (by rw [e]; exact lt_irrefl _)
  · obtain ⟨k, v⟩ := x
    rw [← mapFind_mem h, ← mapFind_mem h', he]

end maps

variable {K : Type}

/-- A catalogue as `Add` leaves it: keyed by the identifiers of its lines. -/
structure Ok (c : Cat K) : Prop where
  keyed : Keyed c
  ids : ∀ x ∈ c, x.2.id = x.1

theorem Ok.add {c : Cat K} (h : Ok c) (l : Line K) : Ok (add c l) := by
  refine ⟨mapPut_keyed _ _ _ h.keyed, fun x hx => ?_⟩
  rcases mapPut_keys _ _ _ x hx with e | e
  · rw [e]
  · exact h.ids x e

theorem Ok.nil : Ok ([] : Cat K) := ⟨List.Pairwise.nil, by simp⟩

/-- **C78** A catalogue after any sequence of additions: keyed by identifier in increasing order, and the line with an identifier is the
last one added with it. -/
theorem C78_catalogue (ls : List (Line K)) :
    Ok (ls.foldl add []) ∧ ∀ id l, (id, l) ∈ ls.foldl add ([] : Cat K) ↔ (ls.reverse.find? fun x => decide (x.id = id)) = some l := by
  have key : Ok (ls.foldl add []) ∧ ∀ id, mapFind id (ls.foldl add ([] : Cat K)) = ls.reverse.find? fun x => decide (x.id = id) := by
    induction ls using List.reverseRecOn with
    | nil => exact ⟨Ok.nil, fun id => rfl⟩
    | append_singleton ls l ih =>
      rw [List.foldl_append]
      refine ⟨ih.1.add l, fun id => ?_⟩
      show mapFind id (mapPut l.id l _) = _
      rw [mapFind_put, ih.2 id, List.reverse_append]
      simp only [List.reverse_cons, List.reverse_nil, List.nil_append, List.singleton_append, List.find?_cons]
      by_cases h : id = l.id
      · rw [if_pos h]; simp [h]
      · rw [if_neg h]
        have : ¬ l.id = id := fun e => h e.symm
        simp [this]
  exact ⟨key.1, fun id l => by rw [← mapFind_mem key.1.keyed, key.2 id]⟩

theorem foldl_put_filter (p : Line K → Bool) : ∀ (c r : Cat K), Keyed (r ++ c) →
    c.foldl (fun r x => if p x.2 then mapPut x.1 x.2 r else r) r = r ++ c.filter fun x => p x.2 := by
  intro c
  induction c with
  | nil => intro r _; simp
  | cons x c ih =>
    intro r h
    rw [List.foldl_cons]
    have h2 := List.pairwise_append.1 h
    have h3 := List.pairwise_cons.1 h2.2.1
    by_cases hp : p x.2 = true
    · rw [if_pos hp, mapPut_append _ _ _ fun y hy => h2.2.2 y hy x (by simp), ih]
      · rw [List.filter_cons_of_pos (by exact hp)]; simp
      · have : r ++ [(x.1, x.2)] ++ c = r ++ x :: c := by simp
        rw [this]; exact h
    · rw [if_neg hp, ih, List.filter_cons_of_neg (by exact hp)]
      exact List.pairwise_append.2 ⟨h2.1, h3.2, fun a ha b hb => h2.2.2 a ha b (by simp [hb])⟩

/-- **C78** The filtered list: the lines of the asked type and force (`all`: any), in the order of the catalogue. -/
theorem C78_filtered (t : LType) (f : Force) (c : Cat K) (h : Ok c) :
    filtered t f c = (c.filter fun x => (decide (t = .all) || decide (t = x.2.type)) && (decide (f = .all) || decide (f = x.2.force))) ∧
      Ok (filtered t f c) := by
  have h1 : filtered t f c = c.filter fun x => kept t f x.2 := by
    unfold filtered
    rw [foldl_put_filter (kept t f) c [] (by simpa using h.keyed)]
    rfl
  refine ⟨h1, ?_⟩
  rw [h1]
  exact ⟨h.keyed.sublist List.filter_sublist, fun x hx => h.ids x (List.mem_of_mem_filter hx)⟩

/-! ## Groups -/

theorem foldl_push (c : Cat K) : ∀ (m : List (String × List (Line K))) (f : String → List (Line K)), EltList.MapOf m f →
    EltList.MapOf (c.foldl (fun m x => EltList.mapPush (groupKey x.2) x.2 m) m)
      (fun g => f g ++ (c.map (·.2)).filter fun l => decide (groupKey l = g)) := by
  induction c with
  | nil => intro m f h; simpa using h
  | cons x c ih =>
    intro m f h
    rw [List.foldl_cons]
    have := ih _ _ (h.push (groupKey x.2) x.2)
    refine Eq.mp (congrArg _ ?_) this
    funext g
    rw [List.map_cons, List.filter_cons]
    by_cases hg : g = groupKey x.2
    · subst hg; simp
    · have : ¬ groupKey x.2 = g := fun e => hg e.symm
      simp [hg, this]

/-- **C78** The groups of a catalogue: for each group name, where a line without group has a name made of its identifier string, the lines
of that group in the order of the catalogue. -/
theorem C78_groups (c : Cat K) : EltList.MapOf (toGroups c) fun g => (c.map (·.2)).filter fun l =>
    decide ((if l.group = "undefined" then "single_" ++ l.strId else l.group) = g) := by
  have := foldl_push c [] (fun _ => []) EltList.MapOf.nil
  simp only [List.nil_append] at this
  exact this

theorem mapPush_perm (k : String) (v : Line K) : ∀ (m : List (String × List (Line K))),
    ((EltList.mapPush k v m).flatMap (·.2)).Perm (v :: m.flatMap (·.2)) := by
  intro m
  induction m with
  | nil => exact List.Perm.refl _
  | cons y m ih =>
    unfold EltList.mapPush
    split
    · exact List.Perm.refl _
    · split
      · simp only [List.flatMap_cons, List.append_assoc, List.singleton_append]
        exact List.perm_middle
      · simp only [List.flatMap_cons]
        exact (ih.append_left y.2).trans List.perm_middle

theorem toGroups_perm (c : Cat K) : ((toGroups c).flatMap (·.2)).Perm (c.map (·.2)) := by
  suffices h : ∀ m : List (String × List (Line K)),
      ((c.foldl (fun m x => EltList.mapPush (groupKey x.2) x.2 m) m).flatMap (·.2)).Perm (c.map (·.2) ++ m.flatMap (·.2)) by
    have := h []
    rw [List.flatMap_nil, List.append_nil] at this
    exact this
  induction c with
  | nil => intro m; exact List.Perm.refl _
  | cons x c ih =>
    intro m
    rw [List.foldl_cons]
    refine (ih _).trans ?_
    refine ((mapPush_perm _ _ m).append_left _).trans ?_
    rw [List.map_cons]
    exact List.perm_middle

/-! ## Elements -/

/-- A new element made of a non-empty list of lines: type and sign of the first line, nominal amplitudes of the catalogue, no fitted
amplitude, visible, and the index of each line found from its identifier (the last one if the identifier is repeated). -/
structure Fresh (e : El K) : Prop where
  nonempty : e.lines ≠ []
  type : ∀ l, e.lines.head? = some l → e.type = l.type ∧ (e.isEmission = true ↔ l.type = .emission)
  nominal : e.nominal = e.lines.map (·.nom)
  fa : e.fa = List.replicate e.lines.length none
  fastd : e.fastd = List.replicate e.lines.length none
  inside : e.gOutside = false ∧ e.gOutsideLine = List.replicate e.lines.length false
  ids : e.ids = idMap e.lines 0 []

theorem newElts_ok : ∀ (gs : List (List (Line K))), (∀ g ∈ gs, g ≠ []) →
    ∃ es, newElts true gs = .ok es ∧ es.map (·.lines) = gs ∧ ∀ e ∈ es, Fresh e := by
  intro gs
  induction gs with
  | nil => intro _; exact ⟨[], rfl, rfl, by simp⟩
  | cons g gs ih =>
    intro h
    obtain ⟨es, h1, h2, h3⟩ := ih fun x hx => h x (by simp [hx])
    cases g with
    | nil => exact absurd rfl (h [] (by simp))
    | cons l ls =>
      refine ⟨⟨l :: ls, l.type, decide (l.type = .emission), (l :: ls).map (·.nom), List.replicate (l :: ls).length none,
        List.replicate (l :: ls).length none, idMap (l :: ls) 0 [], false, List.replicate (l :: ls).length false⟩ :: es, ?_, ?_, ?_⟩
      · unfold newElts
        rw [h1]
        rfl
      · simp [h2]
      · intro e he
        rcases List.mem_cons.1 he with rfl | he
        · refine ⟨by simp, fun x hx => ?_, rfl, rfl, rfl, ⟨rfl, rfl⟩, rfl⟩
          simp only [List.head?_cons, Option.some.injEq] at hx
          subst hx
          exact ⟨rfl, by simp⟩
        · exact h3 e he

/-- **C78** Loading a catalogue: one new element for each group, in the order of the group names, with the lines of the group in the order of
the catalogue; every line of the catalogue is in exactly one element, once. -/
theorem C78_load (c : Cat K) : ∃ (es : List (El K)) (gs : List String), load true c = .ok es ∧ (∀ e ∈ es, Fresh e) ∧ (es.flatMap (·.lines)).Perm (c.map (·.2)) ∧
    gs.Pairwise (· < ·) ∧ (∀ l ∈ c.map (·.2), (if l.group = "undefined" then "single_" ++ l.strId else l.group) ∈ gs) ∧
    es.map (·.lines) = gs.map fun g => (c.map (·.2)).filter fun l =>
      decide ((if l.group = "undefined" then "single_" ++ l.strId else l.group) = g) := by
  obtain ⟨m1, m2⟩ := C78_groups c
  obtain ⟨es, h1, h2, h3⟩ := newElts_ok ((toGroups c).map (·.2)) (by
    intro g hg
    obtain ⟨x, hx, rfl⟩ := List.mem_map.1 hg
    exact ((m2 x.1 x.2).1 hx).2)
  refine ⟨es, (toGroups c).map (·.1), h1, h3, ?_, ?_, ?_, ?_⟩
  · have : es.flatMap (·.lines) = (toGroups c).flatMap (·.2) := by
      rw [List.flatMap_def, h2, ← List.flatMap_def]
    rw [this]
    exact toGroups_perm c
  · rw [List.pairwise_map]; exact m1
  · intro l hl
    refine List.mem_map.2 ⟨(_, (c.map (·.2)).filter fun x => decide ((if x.group = "undefined" then "single_" ++ x.strId else x.group) =
      (if l.group = "undefined" then "single_" ++ l.strId else l.group))), (m2 _ _).2 ⟨rfl, ?_⟩, rfl⟩
    intro he
    have : l ∈ (c.map (·.2)).filter fun x => decide ((if x.group = "undefined" then "single_" ++ x.strId else x.group) =
      (if l.group = "undefined" then "single_" ++ l.strId else l.group)) := List.mem_filter.2 ⟨hl, by simp⟩
    rw [he] at this
    exact absurd this (by simp)
  · rw [h2, List.map_map]
    refine List.map_congr_left fun x hx => ?_
    exact ((m2 x.1 x.2).1 hx).1

/-- **C78** Loading one line by element: one element for each line, in the order of the catalogue. -/
theorem C78_one_line (c : Cat K) : ∃ es, loadOneLine true c = .ok es ∧ (∀ e ∈ es, Fresh e) ∧ es.map (·.lines) = c.map fun x => [x.2] :=
  by
  obtain ⟨es, h1, h2, h3⟩ := newElts_ok (c.map fun x => [x.2]) (by
    intro g hg; obtain ⟨x, _, rfl⟩ := List.mem_map.1 hg; simp)
  exact ⟨es, h1, h3, h2⟩

/-- **C78** Loading two elements: the absorption lines then the emission lines, in the order of the catalogue, without an element for a type
that has no line. -/
theorem C78_two (c : Cat K) : ∃ es, loadAE true c = .ok es ∧ (∀ e ∈ es, Fresh e) ∧
    es.map (·.lines) = ([(c.map (·.2)).filter fun l => decide (l.type = .absorption), (c.map (·.2)).filter fun l => decide (l.type = .emission)]).filter
      (fun l => decide (l.length > 0)) ∧
    ∀ e ∈ es, ∀ l ∈ e.lines, l.type = e.type := by
  obtain ⟨es, h1, h2, h3⟩ := newElts_ok ((([.absorption, .emission].map fun t => ofType t c)).filter fun l => decide (l.length > 0)) (by
    intro g hg
    have := (List.mem_filter.1 hg).2
    rintro rfl
    simp at this)
  refine ⟨es, h1, h3, h2, fun e he l hl => ?_⟩
  have hm : e.lines ∈ es.map (·.lines) := List.mem_map.2 ⟨e, he, rfl⟩
  rw [h2] at hm
  obtain ⟨t, _, ht⟩ := List.mem_map.1 (List.mem_of_mem_filter hm)
  have hall : ∀ x ∈ e.lines, x.type = t := by
    intro x hx
    rw [← ht] at hx
    simpa using (List.mem_filter.1 hx).2
  obtain ⟨x, hx⟩ := List.exists_mem_of_ne_nil _ (h3 e he).nonempty
  have : ∃ y, e.lines.head? = some y ∧ y ∈ e.lines := by
    cases hls : e.lines with
    | nil => exact absurd hls (h3 e he).nonempty
    | cons y ys => exact ⟨y, rfl, by simp⟩
  obtain ⟨y, hy1, hy2⟩ := this
  rw [hall l hl, ((h3 e he).type y hy1).1, hall y hy2]

/-- A new element satisfies the invariant of the amplitude code. -/
theorem fresh_wf [Field K] [LinearOrder K] [IsStrictOrderedRing K] {e : El K} (h : Fresh e) (a : K) (o : Bool) (ol : List Bool)
    (ho : ol.length = e.lines.length) : Amp.WF (e.toAmp a o ol) := by
  refine ⟨?_, ?_, ?_, ?_, ?_⟩ <;> simp [El.toAmp, h.nominal, h.fa, h.fastd, h.inside, ho]

/-! ## Search of a line -/

theorem idMap_find (id : ℤ) : ∀ (ls : List (Line K)) (k : Nat) (m : List (ℤ × Nat)), (ls.map (·.id)).Nodup →
    mapFind id (idMap ls k m) = match ls.findIdx? fun l => decide (l.id = id) with
      | some i => some (k + i)
      | none => mapFind id m := by
  intro ls
  induction ls with
  | nil => intro k m _; rfl
  | cons l ls ih =>
    intro k m hd
    rw [List.map_cons, List.nodup_cons] at hd
    rw [idMap, ih (k + 1) _ hd.2, List.findIdx?_cons]
    by_cases h : l.id = id
    · have : (ls.findIdx? fun l => decide (l.id = id)) = none := by
        rw [List.findIdx?_eq_none_iff]
        intro x hx
        have : x.id ≠ id := fun e => hd.1 (List.mem_map.2 ⟨x, hx, by rw [e, h]⟩)
        simpa using this
      rw [this]
      simp [h, mapFind_put]
    · have h' : ¬ id = l.id := fun e => h e.symm
      simp only [h, decide_false]
      cases (ls.findIdx? fun l => decide (l.id = id)) with
      | none => simp [mapFind_put, h']
      | some i => simp; omega

/-- **C78** The search of an identifier in new elements whose lines have distinct identifiers finds the element and the index of the line
with it, and nothing if there is none. -/
theorem C78_find (es : List (El K)) (hf : ∀ e ∈ es, Fresh e) (hd : ((es.flatMap (·.lines)).map (·.id)).Nodup) (id : ℤ) :
    (∀ i j, findId id es 0 = some (i, j) ↔ ∃ e l, es[i]? = some e ∧ e.lines[j]? = some l ∧ l.id = id) ∧
      (findId id es 0 = none ↔ ∀ e ∈ es, ∀ l ∈ e.lines, l.id ≠ id) := by
  have key : ∀ (es : List (El K)) (k : Nat), (∀ e ∈ es, Fresh e) → ((es.flatMap (·.lines)).map (·.id)).Nodup →
      (∀ i j, findId id es k = some (i, j) ↔ ∃ n, i = k + n ∧ ∃ e l, es[n]? = some e ∧ e.lines[j]? = some l ∧ l.id = id) := by
    intro es
    induction es with
    | nil => intro k _ _ i j; simp [findId]
    | cons e es ih =>
      intro k hf hd i j
      rw [List.flatMap_cons, List.map_append, List.nodup_append] at hd
      obtain ⟨d1, d2, d3⟩ := hd
      have hI := idMap_find id e.lines 0 [] d1
      unfold findId
      rw [(hf e (by simp)).ids, hI]
      cases hx : (e.lines.findIdx? fun l => decide (l.id = id)) with
      | none =>
        rw [List.findIdx?_eq_none_iff] at hx
        simp only [mapFind]
        rw [ih (k + 1) (fun x hx => hf x (by simp [hx])) d2]
        constructor
        · rintro ⟨n, rfl, e', l, h1, h2, h3⟩
          exact ⟨n + 1, by omega, e', l, by simpa using h1, h2, h3⟩
        · rintro ⟨n, rfl, e', l, h1, h2, h3⟩
          cases n with
          | zero =>
            rw [List.getElem?_cons_zero, Option.some.injEq] at h1
            subst h1
            have := hx l (List.mem_of_getElem? h2)
            simp [h3] at this
          | succ n => exact ⟨n, by omega, e', l, by simpa using h1, h2, h3⟩
      | some p =>
        rw [List.findIdx?_eq_some_iff_getElem] at hx
        obtain ⟨hp, hp2, _⟩ := hx
        have hp2 : e.lines[p].id = id := by simpa using hp2
        simp only [Option.some.injEq, Prod.mk.injEq, Nat.zero_add]
        constructor
        · rintro ⟨rfl, rfl⟩
          exact ⟨0, rfl, e, e.lines[p], rfl, List.getElem?_eq_getElem hp, hp2⟩
        · rintro ⟨n, rfl, e', l, h1, h2, h3⟩
          cases n with
          | zero =>
            rw [List.getElem?_cons_zero, Option.some.injEq] at h1
            subst h1
            obtain ⟨hj, hj2⟩ := List.getElem?_eq_some_iff.1 h2
            refine ⟨rfl, ?_⟩
            have := (List.nodup_iff_injective_get.1 d1) (a₁ := ⟨p, by simpa using hp⟩) (a₂ := ⟨j, by simpa using hj⟩)
              (by simp [hj2, h3, hp2])
            simpa using this
          | succ n =>
            rw [List.getElem?_cons_succ] at h1
            exact absurd rfl (d3 id (List.mem_map.2 ⟨e.lines[p], List.getElem_mem _, hp2⟩) id
              (List.mem_map.2 ⟨l, List.mem_flatMap.2 ⟨e', List.mem_of_getElem? h1, List.mem_of_getElem? h2⟩, h3⟩))
  have h0 := key es 0 hf hd
  refine ⟨fun i j => ?_, ?_⟩
  · rw [h0]
    constructor
    · rintro ⟨n, rfl, h⟩; rw [Nat.zero_add]; exact h
    · intro h; exact ⟨i, by omega, h⟩
  · constructor
    · intro hn e he l hl hc
      obtain ⟨i, hi, rfl⟩ := List.getElem_of_mem he
      obtain ⟨j, hj, rfl⟩ := List.getElem_of_mem hl
      have := (h0 i j).2 ⟨i, by omega, es[i], es[i].lines[j], List.getElem?_eq_getElem hi, List.getElem?_eq_getElem hj, hc⟩
      rw [hn] at this
      exact absurd this (by simp)
    · intro hall
      cases hx : findId id es 0 with
      | none => rfl
      | some x =>
        obtain ⟨n, _, e, l, h1, h2, h3⟩ := (h0 x.1 x.2).1 hx
        exact absurd h3 (hall e (List.mem_of_getElem? h1) l (List.mem_of_getElem? h2))

/-- The identifiers of a catalogue are distinct, so that the search applies to the elements loaded from it. -/
theorem ids_nodup {c : Cat K} (h : Ok c) : ((c.map (·.2)).map (·.id)).Nodup := by
  rw [List.map_map]
  have : c.map ((fun l => l.id) ∘ fun x => x.2) = c.map (·.1) := List.map_congr_left fun x hx => h.ids x hx
  rw [this]
  exact (List.pairwise_map.2 h.keyed).imp fun h => ne_of_lt h

/-- **C78** After loading a catalogue by groups, every identifier of the catalogue is found at the line that has it, and no other is found. -/
theorem C78_load_find (c : Cat K) (h : Ok c) (es : List (El K)) (hl : load true c = .ok es) (id : ℤ) :
    (∀ i j, findId id es 0 = some (i, j) → ∃ e l, es[i]? = some e ∧ e.lines[j]? = some l ∧ (id, l) ∈ c) ∧
      (findId id es 0 = none ↔ ∀ l, (id, l) ∉ c) := by
  obtain ⟨es', gs, h1, h2, h3, _⟩ := C78_load c
  rw [hl] at h1; cases h1
  have hd : ((es.flatMap (·.lines)).map (·.id)).Nodup := (h3.map (·.id)).nodup_iff.2 (ids_nodup h)
  obtain ⟨a, b⟩ := C78_find es h2 hd id
  have hmem : ∀ e l, e ∈ es → l ∈ e.lines → l.id = id → (id, l) ∈ c := by
    intro e l he hle hid
    have : l ∈ c.map (·.2) := h3.mem_iff.1 (List.mem_flatMap.2 ⟨e, he, hle⟩)
    obtain ⟨x, hx, rfl⟩ := List.mem_map.1 this
    have := h.ids x hx
    rw [← hid, this]
    exact hx
  refine ⟨fun i j hij => ?_, ?_⟩
  · obtain ⟨e, l, e1, e2, e3⟩ := (a i j).1 hij
    exact ⟨e, l, e1, e2, hmem e l (List.mem_of_getElem? e1) (List.mem_of_getElem? e2) e3⟩
  · rw [b]
    constructor
    · intro hall l hc
      have : l ∈ es.flatMap (·.lines) := h3.mem_iff.2 (List.mem_map.2 ⟨(id, l), hc, rfl⟩)
      obtain ⟨e, he, hle⟩ := List.mem_flatMap.1 this
      exact hall e he l hle (h.ids _ hc)
    · intro hall e he l hle hid
      exact hall l (hmem e l he hle hid)

/-! ## Line ratio catalogues -/

/-- **C79** Setting the amplitude of a line changes this amplitude and nothing else; an identifier that is not in the catalogue is refused. -/
theorem C79_set_amplitude (c : Cat K) (h : Ok c) (id : ℤ) (a : K) :
    (∀ l, (id, l) ∈ c → setLineAmplitude id a c = .ok (c.map fun x => if x.1 = id then (x.1, { x.2 with nom := a }) else x)) ∧
      ((∀ l, (id, l) ∉ c) → setLineAmplitude id a c = .throw .INTERNAL_ERROR) := by
  refine ⟨fun l hl => ?_, fun hn => ?_⟩
  · unfold setLineAmplitude
    rw [(mapFind_mem h.keyed id l).2 hl]
    simp only
    congr 1
    refine keyed_ext (mapPut_keyed _ _ _ h.keyed) ?_ fun k => ?_
    · unfold Keyed
      rw [List.pairwise_map]
      refine h.keyed.imp fun {x y} hxy => ?_
      split <;> split <;> exact hxy
    · rw [mapFind_put]
      have : ∀ (c : Cat K), mapFind k (c.map fun x => if x.1 = id then (x.1, { x.2 with nom := a }) else x) =
          (mapFind k c).map fun v => if k = id then { v with nom := a } else v := by
        intro c
        induction c with
        | nil => rfl
        | cons x c ih =>
          rw [List.map_cons]
          by_cases hx : x.1 = id
          · rw [if_pos hx, mapFind, mapFind, ih]
            by_cases hk : k = x.1
            · rw [if_pos hk, if_pos hk, Option.map_some, if_pos (by rw [hk, hx])]
            · rw [if_neg hk, if_neg hk]
          · rw [if_neg hx, mapFind, mapFind, ih]
            by_cases hk : k = x.1
            · rw [if_pos hk, if_pos hk, Option.map_some, if_neg (by rw [hk]; exact hx)]
            · rw [if_neg hk, if_neg hk]
      rw [this]
      by_cases hk : k = id
      · subst hk
        rw [if_pos rfl, (mapFind_mem h.keyed k l).2 hl]
        simp
      · rw [if_neg hk]
        cases mapFind k c <;> simp [hk]
  · unfold setLineAmplitude
    cases hx : mapFind id c with
    | none => rfl
    | some l => exact absurd ((mapFind_mem h.keyed id l).1 hx) (hn l)

/-- **C79** A line ratio catalogue starts with the lines of the base catalogue with null amplitudes, prior 1, dust index 0 and no velocity. -/
theorem C79_new [Zero K] [One K] (name : String) (c : Cat K) :
    (Ratio.new name c).cat = c.map (fun x => (x.1, { x.2 with nom := 0 })) ∧ (Ratio.new name c).name = name ∧ (Ratio.new name c).prior = 1 ∧
      (Ratio.new name c).ism = 0 ∧ ∀ g, (Ratio.new name c).getVelocity g = .throw .STD_OUT_OF_RANGE :=
  ⟨rfl, rfl, rfl, rfl, fun _ => rfl⟩

/-- A sequence of velocity additions. -/
def addVels : List (String × K) → Ratio K → Res (Ratio K)
  | [], r => .ok r
  | v :: l, r => r.addVelocity v.1 v.2 >>= fun r' => addVels l r'

/-- **C79** Adding velocities succeeds exactly when the group names are distinct and new; then each group has the velocity given, and nothing
else changes. -/
theorem C79_velocities : ∀ (l : List (String × K)) (r : Ratio K),
    (((l.map (·.1)).Nodup ∧ ∀ v ∈ l, r.getVelocity v.1 = .throw .STD_OUT_OF_RANGE) → ∃ r', addVels l r = .ok r' ∧ r'.cat = r.cat ∧ r'.name = r.name ∧
      r'.prior = r.prior ∧ r'.ism = r.ism ∧ (∀ v ∈ l, r'.getVelocity v.1 = .ok v.2) ∧ ∀ g, g ∉ l.map (·.1) → r'.getVelocity g = r.getVelocity g) ∧
    (¬ ((l.map (·.1)).Nodup ∧ ∀ v ∈ l, r.getVelocity v.1 = .throw .STD_OUT_OF_RANGE) → addVels l r = .throw .INTERNAL_ERROR) := by
  intro l
  induction l with
  | nil =>
    intro r
    exact ⟨fun _ => ⟨r, rfl, rfl, rfl, rfl, rfl, by simp, fun _ _ => rfl⟩, fun h => absurd ⟨by simp, by simp⟩ h⟩
  | cons v l ih =>
    intro r
    have hv : r.getVelocity v.1 = .throw .STD_OUT_OF_RANGE ↔ mapFind v.1 r.vel = none := by
      unfold Ratio.getVelocity
      cases mapFind v.1 r.vel <;> simp
    have hget : ∀ g, ({ r with vel := mapPut v.1 v.2 r.vel } : Ratio K).getVelocity g = if g = v.1 then .ok v.2 else r.getVelocity g := by
      intro g
      unfold Ratio.getVelocity
      simp only
      rw [mapFind_put]
      by_cases hg : g = v.1
      · rw [if_pos hg, if_pos hg]
      · rw [if_neg hg, if_neg hg]
    obtain ⟨i1, i2⟩ := ih { r with vel := mapPut v.1 v.2 r.vel }
    constructor
    · rintro ⟨h1, h2⟩
      rw [List.map_cons, List.nodup_cons] at h1
      have hn := hv.1 (h2 v (by simp))
      obtain ⟨r', e1, e2, e3, e4, e5, e6, e7⟩ := i1 ⟨h1.2, fun w hw => by
        rw [hget, if_neg (fun e => h1.1 (List.mem_map.2 ⟨w, hw, e⟩))]
        exact h2 w (by simp [hw])⟩
      refine ⟨r', ?_, e2, e3, e4, e5, ?_, ?_⟩
      · unfold addVels Ratio.addVelocity
        rw [hn]
        exact e1
      · intro w hw
        rcases List.mem_cons.1 hw with rfl | hw
        · rw [e7 _ h1.1, hget, if_pos rfl]
        · exact e6 w hw
      · intro g hg
        rw [List.map_cons, List.mem_cons, not_or] at hg
        rw [e7 g hg.2, hget, if_neg hg.1]
    · intro hn
      unfold addVels Ratio.addVelocity
      cases hx : mapFind v.1 r.vel with
      | some x => rfl
      | none =>
        rw [Res.bind_ok]
        refine i2 fun ⟨h1, h2⟩ => hn ⟨?_, ?_⟩
        · rw [List.map_cons, List.nodup_cons]
          refine ⟨fun hm => ?_, h1⟩
          obtain ⟨w, hw, hwe⟩ := List.mem_map.1 hm
          have := h2 w hw
          rw [hget, if_pos hwe] at this
          exact absurd this (by simp)
        · intro w hw
          rcases List.mem_cons.1 hw with rfl | hw
          · exact hv.2 hx
          · have := h2 w hw
            rw [hget] at this
            split at this
            · exact absurd this (by simp)
            · exact this

/-! ## Concrete cases -/

/-- A line. -/
def ex (id : ℤ) (s g : String) (t : LType) (a : ℚ) : Line ℚ := ⟨id, s, s, g, "undefined", t, .strong, 5000, a⟩

def exLines : List (Line ℚ) := [ex 7 "c" "undefined" .emission 1, ex 3 "a" "OIII" .emission 3, ex 5 "b" "OIII" .emission 1, ex 7 "d" "undefined" .absorption 2]

/-- The second line with identifier 7 replaces the first; three lines, two elements. -/
example : (exLines.foldl add []).map (·.1) = [3, 5, 7] ∧
    ((load true (exLines.foldl add [])).bind fun es => .ok (es.map fun e => e.lines.map (·.strId))) = .ok [["a", "b"], ["d"]] ∧
    ((load true (exLines.foldl add [])).bind fun es => .ok (findId 5 es 0, findId 7 es 0, findId 4 es 0)) = .ok (some (0, 1), some (1, 0), none) ∧
    ((loadAE true (exLines.foldl add [])).bind fun es => .ok (es.map fun e => e.lines.map (·.strId))) = .ok [["d"], ["a", "b"]] := by
  decide +kernel

example : (addVels [("x", 3), ("y", 4)] (Ratio.new "r" (exLines.foldl add []))).bind (fun r => r.getVelocity "x") = .ok 3 := by
  decide +kernel

/-- Lines without group that share their identifier string, and lines whose group is called like it, are put in one element. -/
theorem C78_single_counterexample :
    ((load true ([ex 1 "a" "undefined" .emission 1, ex 2 "a" "undefined" .emission 1, ex 3 "b" "single_a" .emission 1].foldl add [])).bind
      fun es => .ok (es.map fun e => e.lines.map (·.id))) = .ok [[1, 2, 3]] := by
  decide +kernel

/-- A group with lines of both types is one element with the type and the sign of the line of smallest identifier: the absorption line 2
is modelled in emission. -/
theorem C78_mixed_counterexample :
    ((load true ([ex 1 "a" "g" .emission 1, ex 2 "b" "g" .absorption 1].foldl add [])).bind
      fun es => .ok (es.map fun e => (e.lines.map (·.type), e.type, e.isEmission))) = .ok [([.emission, .absorption], .emission, true)] := by
  decide +kernel

/-- **C78, text of a catalog.** The type of a line is read from the first letter of its column: `E` emission, `A`
absorption, the word `no` for both; an empty column is undefined and any other text an error. -/
theorem C78_type (s : String) (t : LType) : string2Type s = .ok t ↔
    (t = .all ∧ s = "no") ∨ (t = .emission ∧ s.toList.head? = some 'E') ∨ (t = .absorption ∧ s.toList.head? = some 'A') := by
  unfold string2Type
  by_cases h : s = "no"
  · subst h
    rw [if_pos rfl]
    have : "no".toList = ['n', 'o'] := by decide +kernel
    rw [this]
    simp [eq_comm]
  · rw [if_neg h]
    cases hl : s.toList with
    | nil => simp [h]
    | cons c l =>
      simp only [List.head?_cons, Option.some.injEq, h, and_false, false_or]
      by_cases hE : c = 'E'
      · subst hE; simp [eq_comm]
      · by_cases hA : c = 'A'
        · subst hA; simp [eq_comm]
        · simp [hE, hA]

/-- **C78, text of a catalog.** The same for the force: `W` weak, `S` strong. -/
theorem C78_force (s : String) (t : Force) : string2Force s = .ok t ↔
    (t = .all ∧ s = "no") ∨ (t = .weak ∧ s.toList.head? = some 'W') ∨ (t = .strong ∧ s.toList.head? = some 'S') := by
  unfold string2Force
  by_cases h : s = "no"
  · subst h
    rw [if_pos rfl]
    have : "no".toList = ['n', 'o'] := by decide +kernel
    rw [this]
    simp [eq_comm]
  · rw [if_neg h]
    cases hl : s.toList with
    | nil => simp [h]
    | cons c l =>
      simp only [List.head?_cons, Option.some.injEq, h, and_false, false_or]
      by_cases hE : c = 'W'
      · subst hE; simp [eq_comm]
      · by_cases hA : c = 'S'
        · subst hA; simp [eq_comm]
        · simp [hE, hA]

example : string2Type "Em" = .ok .emission ∧ string2Type "A" = .ok .absorption ∧ string2Force "W" = .ok .weak ∧
    string2Force "x" = .throw .BAD_LINE_FORCE ∧ string2Type "" = .ub := by decide +kernel

/-- A line of type `all` (written `no`) is accepted and gets no element when two elements are loaded. -/
theorem C78_no_type_counterexample : string2Type "no" = .ok .all ∧
    ((loadAE true ([ex 1 "a" "g" .all 1].foldl add [])).bind fun es => .ok es.length) = .ok 0 := by
  decide +kernel

end LineCat
end Amazed
