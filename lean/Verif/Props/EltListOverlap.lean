import Verif.Props.EltListProps

set_option linter.unusedVariables false
set_option linter.unusedSectionVars false

/-! # Overlapping elements, groups of the hybrid fit (C75) and velocity groups (C76) -/

namespace Amazed
namespace EltList

variable {K G : Type} [Field K] [LinearOrder K] [IsStrictOrderedRing K] [LinearOrder G]

/-- The observed windows of line `l` of the reference `r` and of line `k` of `e` share more than the fraction `thres` of
the window of the reference line. -/
def LineOverlap (r : E K G) (l : Nat) (e : E K G) (k : Nat) (thres : K) : Prop :=
  min (r.mu l + r.win l / 2) (e.mu k + e.win k / 2) - max (r.mu l - r.win l / 2) (e.mu k - e.win k / 2) > thres * r.win l

/-- Two visible lines overlap. -/
def Overlaps (r e : E K G) (thres : K) : Prop :=
  ∃ l k, l < r.sup.n ∧ k < e.sup.n ∧ (r.sup.theo l).out = false ∧ (e.sup.theo k).out = false ∧ LineOverlap r l e k thres

/-- Element `i` has the type of element `ind` and overlaps it. -/
def Linked (es : List (E K G)) (ind i : Nat) (thres : K) : Prop :=
  ∃ r e, es[ind]? = some r ∧ es[i]? = some e ∧ e.type = r.type ∧ Overlaps r e thres

theorem linesOverlap_iff (r : E K G) (l : Nat) (e : E K G) (k : Nat) (thres : K) :
    linesOverlap (r.mu l) (r.win l) (e.mu k) (e.win k) thres = true ↔ LineOverlap r l e k thres := by
  unfold linesOverlap LineOverlap
  rw [decide_eq_true_iff]
  constructor <;> intro h <;> linarith

theorem pushes_mem (r e : E K G) (thres : K) (i j : Nat) : j ∈ pushes r e thres i ↔ j = i ∧ Overlaps r e thres := by
  unfold pushes Overlaps
  rw [List.mem_flatMap]
  constructor
  · rintro ⟨k, hk, hj⟩
    split at hj
    · rename_i h
      rw [Bool.and_eq_true] at h
      unfold lineHits at h
      rw [List.any_eq_true] at h
      obtain ⟨h1, l, hl, h2⟩ := h
      rw [Bool.and_eq_true, linesOverlap_iff] at h2
      exact ⟨List.mem_singleton.1 hj, l, k, List.mem_range.1 hl, List.mem_range.1 hk, by simpa using h2.1, by simpa using h1, h2.2⟩
    · simp at hj
  · rintro ⟨rfl, l, k, hl, hk, h1, h2, h3⟩
    refine ⟨k, List.mem_range.2 hk, ?_⟩
    rw [if_pos]
    · simp
    · rw [Bool.and_eq_true]
      refine ⟨by simp [h2], ?_⟩
      unfold lineHits
      rw [List.any_eq_true]
      exact ⟨l, List.mem_range.2 hl, by rw [Bool.and_eq_true, linesOverlap_iff]; exact ⟨by simp [h1], h3⟩⟩

theorem visible_inside {e : EltSup.Elt} {k : Nat} (hk : k < e.n) (h : (e.theo k).out = false) : e.outside = false := by
  by_contra hc
  have hc : e.outside = true := by simpa using hc
  unfold EltSup.Elt.outside at hc
  rw [List.all_eq_true] at hc
  rw [hc k (List.mem_range.2 hk)] at h
  exact absurd h (by simp)

/-- **C75** The elements overlapping an element: increasing without duplicates, made of the element itself and of exactly
the elements of the same type, not excluded, that have a visible line sharing more than the given fraction of the window of
a visible line of the reference. -/
theorem C75_overlap (es : List (E K G)) (ind : Nat) (excluded : List Nat) (thres : K) (hi : ind < es.length) :
    ∃ l, overlapping es ind excluded thres = .ok l ∧ l.Pairwise (· < ·) ∧
      ∀ i, i ∈ l ↔ i = ind ∨ (i ∉ excluded ∧ Linked es ind i thres) := by
  unfold overlapping
  rw [Res.at_of_lt hi, Res.bind_ok]
  have hind : es[ind]? = some es[ind] := List.getElem?_eq_getElem hi
  split
  · rename_i ho
    refine ⟨[ind], rfl, by simp, fun i => ?_⟩
    rw [List.mem_singleton]
    refine ⟨Or.inl, ?_⟩
    rintro (h | ⟨_, r, e, h1, _, _, l, k, hl, _, h2, _⟩)
    · exact h
    · rw [hind] at h1; cases h1
      rw [visible_inside hl h2] at ho
      exact absurd ho (by simp)
  · obtain ⟨s, h1, h2⟩ := Res.foldN_inv (fun n (acc : List Nat) => ∀ i, i ∈ acc ↔ i < n ∧ (i = ind ∨ (i ∉ excluded ∧ Linked es ind i thres)))
      es.length 0 [] (by intro i; simp)
      (f := fun i acc => Res.at_ es i >>= fun e =>
        if i = ind then .ok (acc ++ [ind])
        else if e.type ≠ es[ind].type then .ok acc
        else if e.sup.outside then .ok acc
        else if i ∈ excluded then .ok acc
        else .ok (acc ++ pushes es[ind] e thres i))
      (by
        intro n acc _ hn hP
        rw [Nat.zero_add] at hn
        rw [Res.at_of_lt hn, Res.bind_ok]
        have hgn : es[n]? = some es[n] := List.getElem?_eq_getElem hn
        -- the elements below `n + 1` once the case of `n` is known
        have key : ∀ (Q : Prop), ((n = ind ∨ (n ∉ excluded ∧ Linked es ind n thres)) ↔ Q) → ∀ i,
            (i < n + 1 ∧ (i = ind ∨ (i ∉ excluded ∧ Linked es ind i thres))) ↔ (i ∈ acc ∨ (i = n ∧ Q)) := by
          intro Q hQ i
          rw [hP i]
          constructor
          · rintro ⟨a, b⟩
            by_cases hin : i = n
            · subst hin; exact Or.inr ⟨rfl, hQ.1 b⟩
            · exact Or.inl ⟨by omega, b⟩
          · rintro (⟨a, b⟩ | ⟨rfl, b⟩)
            · exact ⟨by omega, b⟩
            · exact ⟨by omega, hQ.2 b⟩
        split
        · rename_i he
          refine ⟨_, rfl, fun i => ?_⟩
          rw [key True (by simp [he]), List.mem_append, List.mem_singleton, he]
          simp
        · rename_i he
          have hQ : (n = ind ∨ (n ∉ excluded ∧ Linked es ind n thres)) ↔
              (n ∉ excluded ∧ es[n].type = es[ind].type ∧ Overlaps es[ind] es[n] thres) := by
            constructor
            · rintro (h | ⟨a, r, e, h1, h2, h3, h4⟩)
              · exact absurd h he
              · rw [hind] at h1; rw [hgn] at h2; cases h1; cases h2
                exact ⟨a, h3, h4⟩
            · rintro ⟨a, b, c⟩
              exact Or.inr ⟨a, _, _, hind, hgn, b, c⟩
          split
          · rename_i ht
            refine ⟨_, rfl, fun i => ?_⟩
            rw [key _ hQ]
            exact ⟨Or.inl, fun h => h.elim id (fun h => absurd h.2.2.1 ht)⟩
          · rename_i ht
            have ht : es[n].type = es[ind].type := not_not.1 ht
            split
            · rename_i ho
              refine ⟨_, rfl, fun i => ?_⟩
              rw [key _ hQ]
              refine ⟨Or.inl, fun h => h.elim id (fun h => ?_)⟩
              obtain ⟨_, _, _, l, k, _, hk, _, h2, _⟩ := h
              rw [visible_inside hk h2] at ho
              exact absurd ho (by simp)
            · split
              · rename_i hx
                refine ⟨_, rfl, fun i => ?_⟩
                rw [key _ hQ]
                exact ⟨Or.inl, fun h => h.elim id (fun h => absurd hx h.2.1)⟩
              · rename_i hx
                refine ⟨_, rfl, fun i => ?_⟩
                rw [key _ hQ, List.mem_append, pushes_mem]
                constructor
                · rintro (h | ⟨h, h'⟩)
                  · exact Or.inl h
                  · exact Or.inr ⟨h, hx, ht, h'⟩
                · rintro (h | ⟨h, _, _, h'⟩)
                  · exact Or.inl h
                  · exact Or.inr ⟨h, h'⟩)
    rw [h1, Res.bind_ok]
    refine ⟨_, rfl, sortUniq_sorted _, fun i => ?_⟩
    rw [sortUniq_mem, h2, Nat.zero_add]
    refine ⟨fun h => h.2, fun h => ⟨?_, h⟩⟩
    rcases h with h | ⟨_, r, e, _, h, _⟩
    · rw [h]; exact hi
    · by_contra hc
      rw [List.getElem?_eq_none (by omega)] at h
      exact absurd h (by simp)

/-! ## Groups of the hybrid fit -/

theorem validIndexes_mem (es : List (E K G)) (disabled : List Nat) (i : Nat) :
    i ∈ validIndexes es disabled ↔ ∃ e, es[i]? = some e ∧ (∃ k, k < e.sup.n ∧ (e.sup.theo k).out = false) ∧ i ∉ disabled := by
  unfold validIndexes
  rw [List.mem_filter, List.mem_range]
  constructor
  · rintro ⟨h1, h2⟩
    rw [List.getElem?_eq_getElem h1] at h2 ⊢
    simp only [Bool.and_eq_true, Bool.not_eq_true', List.contains_eq_mem, decide_eq_false_iff_not] at h2
    refine ⟨_, rfl, ?_, h2.2⟩
    have := h2.1
    unfold EltSup.Elt.outside at this
    rw [List.all_eq_false] at this
    obtain ⟨k, hk, hk'⟩ := this
    exact ⟨k, List.mem_range.1 hk, by simpa using hk'⟩
  · rintro ⟨e, h1, ⟨k, hk, hk'⟩, h2⟩
    have hl : i < es.length := by
      by_contra hc
      rw [List.getElem?_eq_none (by omega)] at h1
      exact absurd h1 (by simp)
    refine ⟨hl, ?_⟩
    rw [h1]
    simp only [Bool.and_eq_true, Bool.not_eq_true', List.contains_eq_mem, decide_eq_false_iff_not]
    exact ⟨visible_inside hk hk', h2⟩

theorem validIndexes_sorted (es : List (E K G)) (disabled : List Nat) : (validIndexes es disabled).Pairwise (· < ·) := by
  unfold validIndexes
  exact List.Pairwise.filter _ List.pairwise_lt_range

/-- The groups follow the rule of the hybrid fit: each group starts from a valid element that is in no earlier group, and
contains exactly that element and the elements linked to it that are in no earlier group. -/
def HybridRule (es : List (E K G)) (disabled : List Nat) (thres : K) (gs : List (Nat × List Nat)) : Prop :=
  ∀ pre g post, gs = pre ++ g :: post → g.1 ∈ validIndexes es disabled ∧ (∀ h ∈ pre, g.1 ∉ h.2) ∧
    ∀ i, i ∈ g.2 ↔ i = g.1 ∨ ((∀ h ∈ pre, i ∉ h.2) ∧ Linked es g.1 i thres)

/-- **C75** The hybrid fit: every valid element is in exactly one group, no element is in two groups or twice in a group,
the groups are in the order of the elements they start from, and each group contains exactly the element it starts from and
the elements overlapping it that are not in an earlier group. -/
theorem C75_hybrid (es : List (E K G)) (disabled : List Nat) (thres : K) :
    ∃ gs, hybridGroups es disabled thres = .ok gs ∧ (∀ i ∈ validIndexes es disabled, ∃ g ∈ gs, i ∈ g.2) ∧
      (gs.flatMap (·.2)).Nodup ∧ (gs.map (·.1)).Pairwise (· < ·) ∧ HybridRule es disabled thres gs := by
  unfold hybridGroups
  obtain ⟨st, h1, h2⟩ := foldL_inv (fun pre (st : List Nat × List (Nat × List Nat)) => st.1 = st.2.flatMap (·.2) ∧
      (∀ i ∈ pre, ∃ g ∈ st.2, i ∈ g.2) ∧ st.1.Nodup ∧ (st.2.map (·.1)).Sublist pre ∧ HybridRule es disabled thres st.2)
      (validIndexes es disabled) [] ([], [])
    (by
      refine ⟨rfl, by simp, by simp, by simp, ?_⟩
      intro pre g post h
      exact absurd h (by simp))
    (f := hybridStep es thres)
    (by
      rintro pre i ⟨fit, gs⟩ hi ⟨c1, c2, c3, c4, c5⟩
      simp only at c1 c2 c3 c4 c5
      unfold hybridStep
      have hlt : i < es.length := by
        obtain ⟨e, h, _⟩ := (validIndexes_mem es disabled i).1 hi
        by_contra hc
        rw [List.getElem?_eq_none (by omega)] at h
        exact absurd h (by simp)
      split
      · rename_i hm
        refine ⟨_, rfl, c1, ?_, c3, c4.trans (by simp), c5⟩
        intro j hj
        rcases List.mem_append.1 hj with hj | hj
        · exact c2 j hj
        · rw [List.mem_singleton] at hj
          subst hj
          simp only at hm
          rw [c1, List.mem_flatMap] at hm
          exact hm
      · rename_i hm
        simp only at hm
        obtain ⟨o, o1, o2, o3⟩ := C75_overlap es i fit thres hlt
        rw [o1, Res.bind_ok]
        refine ⟨_, rfl, ?_, ?_, ?_, ?_, ?_⟩
        · simp [c1]
        · intro j hj
          rcases List.mem_append.1 hj with hj | hj
          · obtain ⟨g, g1, g2⟩ := c2 j hj
            exact ⟨g, by simp [g1], g2⟩
          · rw [List.mem_singleton] at hj
            subst hj
            exact ⟨(j, o), by simp, (o3 j).2 (Or.inl rfl)⟩
        · refine List.nodup_append.2 ⟨c3, o2.imp (fun h => ne_of_lt h), ?_⟩
          intro a ha b hb hab
          subst hab
          rcases (o3 a).1 hb with e | ⟨e, _⟩
          · rw [e] at ha; exact hm ha
          · exact e ha
        · simp only [List.map_append, List.map_cons, List.map_nil]
          exact c4.append (List.Sublist.refl _)
        · intro p g q hpq
          rcases List.eq_nil_or_concat q with hq | ⟨q', x, hq⟩
          · subst hq
            have : gs = p ∧ (i, o) = g := by
              have := List.append_inj' hpq (by simp)
              simpa using this
            obtain ⟨e1, e2⟩ := this
            subst e1; subst e2
            have hnot : ∀ j, (∀ h ∈ gs, j ∉ h.2) ↔ j ∉ fit := by
              intro j
              rw [c1, List.mem_flatMap]
              push Not
              rfl
            refine ⟨hi, (hnot i).2 hm, fun j => ?_⟩
            rw [hnot j]
            exact o3 j
          · rw [List.concat_eq_append] at hq
            subst hq
            have : gs = p ++ g :: q' := by
              have h' : gs ++ [(i, o)] = (p ++ g :: q') ++ [x] := by simpa using hpq
              exact (List.append_inj' h' (by simp)).1
            exact c5 p g q' this)
  rw [List.nil_append] at h2
  rw [h1, Res.bind_ok]
  obtain ⟨c1, c2, c3, c4, c5⟩ := h2
  refine ⟨st.2, rfl, c2, by rw [← c1]; exact c3, (validIndexes_sorted es disabled).sublist c4, c5⟩

/-! ## Examples and counterexamples for C75 -/

/-- An element with one visible line of the given observed position and window. -/
def lineE (mu win : ℚ) : E ℚ Nat := ⟨⟨1, fun _ => ⟨0, 0, false⟩, ⟨fun _ => 0, fun _ => 0, fun a b => decide (a = b)⟩⟩, .emission, 0,
  fun _ => 0, fun _ => mu, fun _ => win, []⟩

/-- Lines 0 and 1 overlap, 1 and 2 overlap, 0 and 2 do not (threshold 0.15, `OVERLAP_THRES_HYBRID_FIT`). -/
def chainEs : List (E ℚ Nat) := [lineE 100 10, lineE 106 10, lineE 112 10, lineE 200 10]

example : overlapping chainEs 1 [] (15 / 100) = .ok [0, 1, 2] ∧ overlapping chainEs 1 [2] (15 / 100) = .ok [0, 1] ∧
    overlapping chainEs 3 [] (15 / 100) = .ok [3] := by decide +kernel

/-- Overlapping elements can be in different groups: in a chain of three, the first takes the second with it and the third
is fitted alone although it overlaps the second. -/
theorem C75_chain_counterexample :
    hybridGroups chainEs [] (15 / 100) = .ok [(0, [0, 1]), (2, [2]), (3, [3])] ∧
      overlapping chainEs 2 [] (15 / 100) = .ok [1, 2] := by decide +kernel

/-- The overlap is not symmetric: a narrow line inside of a wide one is joined to it when the narrow one comes first, and
fitted apart when the wide one comes first. -/
theorem C75_asymmetric_counterexample :
    hybridGroups [lineE 100 10, lineE 100 100] [] (15 / 100) = .ok [(0, [0, 1])] ∧
      hybridGroups [lineE 100 100, lineE 100 10] [] (15 / 100) = .ok [(0, [0]), (1, [1])] := by decide +kernel

/-- A disabled element is not a starting point but is fitted all the same when it overlaps another one. -/
theorem C75_disabled_counterexample : validIndexes chainEs [1] = [0, 2, 3] ∧
    hybridGroups chainEs [1] (15 / 100) = .ok [(0, [0, 1]), (2, [2]), (3, [3])] := by decide +kernel

/-! ## Velocity groups -/

/-- The entries of a velocity group: each valid element once for each of its lines of the type and tag. -/
def velMembers (es : List (E K G)) (type : Amp.LType) (l : List Nat) (t : G) : List Nat :=
  l.flatMap fun i => match es[i]? with
    | none => []
    | some e => (e.lines.filter fun x => decide (x = (type, t))).map fun _ => i

theorem pushAll {V : Type} (v : V) : ∀ (ts : List G) {m : List (G × List V)} {f : G → List V}, MapOf m f →
    MapOf (ts.foldl (fun m t => mapPush t v m) m) (fun t => f t ++ (ts.filter fun x => decide (x = t)).map fun _ => v) := by
  intro ts
  induction ts with
  | nil => intro m f h; simpa using h
  | cons t ts ih =>
    intro m f h
    have := ih (h.push t v)
    rw [List.foldl_cons]
    refine Eq.mp (congrArg _ ?_) this
    funext q
    by_cases hq : q = t
    · subst hq
      simp
    · have : t ≠ q := fun h => hq h.symm
      simp [hq, this]

/-- **C76** The velocity groups for a type of lines: the tags of the visible and enabled elements having a line of that
type, each tag once and in increasing order; the group of a tag lists the valid elements with such a line, in increasing
order, each as many times as it has lines of that type and tag. -/
theorem C76_velocity_groups (es : List (E K G)) (disabled : List Nat) (type : Amp.LType) :
    ∃ m, velfitGroups es disabled type = .ok (m.map (·.2)) ∧ MapOf m (velMembers es type (validIndexes es disabled)) := by
  unfold velfitGroups
  obtain ⟨m, h1, h2⟩ := foldL_inv (fun pre (m : List (G × List Nat)) => MapOf m (velMembers es type pre)) (validIndexes es disabled) [] []
    (by exact MapOf.nil)
    (f := fun i m => Res.at_ es i >>= fun e => .ok ((velTags type e).foldl (fun m t => mapPush t i m) m))
    (by
      intro pre i m hi hP
      have hlt : i < es.length := by
        obtain ⟨e, h, _⟩ := (validIndexes_mem es disabled i).1 hi
        by_contra hc
        rw [List.getElem?_eq_none (by omega)] at h
        exact absurd h (by simp)
      rw [Res.at_of_lt hlt, Res.bind_ok]
      refine ⟨_, rfl, ?_⟩
      refine Eq.mp (congrArg _ ?_) (pushAll i (velTags type es[i]) hP)
      funext t
      unfold velMembers
      rw [List.flatMap_append]
      congr 1
      simp only [List.flatMap_cons, List.flatMap_nil, List.append_nil]
      rw [List.getElem?_eq_getElem hlt]
      simp only
      unfold velTags
      rw [List.filter_map, List.map_map, List.filter_filter]
      have : (fun x : Amp.LType × G => ((fun x => decide (x = t)) ∘ fun x => x.2) x && decide (type = x.1)) = fun x => decide (x = (type, t)) := by
        funext x
        obtain ⟨a, b⟩ := x
        simp only [Function.comp, Prod.mk.injEq, ← Bool.decide_and, eq_comm (a := type), and_comm]
      rw [this]
      rfl)
  rw [h1, Res.bind_ok]
  exact ⟨m, rfl, by rw [List.nil_append] at h2; exact h2⟩

/-- The removal of the duplicates has no effect: an element with two lines of one velocity group is listed twice. -/
theorem C76_duplicate_counterexample :
    velfitGroups [{ lineE 100 10 with lines := [(.emission, 5), (.emission, 5), (.absorption, 5)] }, { lineE 150 10 with lines := [(.emission, 5)] }]
      [] .emission = .ok [[0, 0, 1]] := by decide +kernel

end EltList
end Amazed
