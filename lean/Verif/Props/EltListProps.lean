import Verif.Model.EltList
import Mathlib.Tactic.Linarith
import Mathlib.Tactic.Ring
import Mathlib.Tactic.NormNum

set_option linter.unusedVariables false
set_option linter.unusedSectionVars false

/-! # Samples, fitting groups and offsets of a list of elements (C74) -/

namespace Amazed
namespace EltList

/-! ## Containers -/

theorem foldL_inv {α σ : Type} {f : α → σ → Res σ} (P : List α → σ → Prop) : ∀ (l pre : List α) (s : σ), P pre s →
    (∀ pre a s, a ∈ l → P pre s → ∃ s', f a s = .ok s' ∧ P (pre ++ [a]) s') → ∃ s', foldL f l s = .ok s' ∧ P (pre ++ l) s' := by
  intro l
  induction l with
  | nil => intro pre s h _; exact ⟨s, rfl, by simpa using h⟩
  | cons a l ih =>
    intro pre s h hs
    obtain ⟨s', h1, h2⟩ := hs pre a s (by simp) h
    obtain ⟨s'', h3, h4⟩ := ih (pre ++ [a]) s' h2 (fun p b s hb hp => hs p b s (by simp [hb]) hp)
    refine ⟨s'', ?_, by simpa using h4⟩
    unfold foldL
    rw [h1, Res.bind_ok, h3]

theorem uniq_mem {α : Type} [DecidableEq α] (x : α) : ∀ l : List α, x ∈ uniq l ↔ x ∈ l := by
  intro l
  induction l with
  | nil => simp [uniq]
  | cons a l ih =>
    cases l with
    | nil => simp [uniq]
    | cons b l =>
      rw [uniq]
      split
      · rename_i h; subst h
        rw [ih]; simp
      · rw [List.mem_cons, ih, List.mem_cons (a := x) (b := a)]

theorem uniq_sorted {α : Type} [LinearOrder α] : ∀ l : List α, l.Pairwise (· ≤ ·) → (uniq l).Pairwise (· < ·) := by
  intro l
  induction l with
  | nil => intro _; simp [uniq]
  | cons a l ih =>
    intro h
    cases l with
    | nil => simp [uniq]
    | cons b l =>
      rw [uniq]
      have hl := ih (List.pairwise_cons.1 h).2
      have hab := (List.pairwise_cons.1 h).1
      have hbl := (List.pairwise_cons.1 (List.pairwise_cons.1 h).2).1
      split
      · exact hl
      · rename_i e
        refine List.pairwise_cons.2 ⟨?_, hl⟩
        intro x hx
        rw [uniq_mem] at hx
        have : a < b := lt_of_le_of_ne (hab b (by simp)) e
        rcases List.mem_cons.1 hx with rfl | hx
        · exact this
        · exact lt_of_lt_of_le this (hbl x hx)

theorem sortUniq_mem {α : Type} [LinearOrder α] (x : α) (l : List α) : x ∈ sortUniq l ↔ x ∈ l := by
  unfold sortUniq
  rw [uniq_mem, List.mem_insertionSort]

theorem sortUniq_sorted {α : Type} [LinearOrder α] (l : List α) : (sortUniq l).Pairwise (· < ·) := by
  unfold sortUniq
  apply uniq_sorted
  exact List.pairwise_insertionSort _ l

/-- A strictly increasing list is determined by its members. -/
theorem sorted_ext {α : Type} [LinearOrder α] : ∀ l l' : List α, l.Pairwise (· < ·) → l'.Pairwise (· < ·) → (∀ x, x ∈ l ↔ x ∈ l') → l = l' := by
  intro l
  induction l with
  | nil =>
    intro l' _ _ h
    cases l' with
    | nil => rfl
    | cons b l' => exact absurd ((h b).2 (by simp)) (by simp)
  | cons a l ih =>
    intro l' h1 h2 h
    cases l' with
    | nil => exact absurd ((h a).1 (by simp)) (by simp)
    | cons b l' =>
      obtain ⟨p1, p2⟩ := List.pairwise_cons.1 h1
      obtain ⟨q1, q2⟩ := List.pairwise_cons.1 h2
      have hab : a = b := by
        rcases List.mem_cons.1 ((h a).1 (by simp)) with e | e
        · exact e
        · rcases List.mem_cons.1 ((h b).2 (by simp)) with e' | e'
          · exact e'.symm
          · exact absurd (q1 a e) (lt_asymm (p1 b e'))
      subst hab
      congr 1
      refine ih l' p2 q2 (fun x => ?_)
      constructor
      · intro hx
        rcases List.mem_cons.1 ((h x).1 (by simp [hx])) with e | e
        · exact absurd (p1 x hx) (by rw [e]; exact lt_irrefl _)
        · exact e
      · intro hx
        rcases List.mem_cons.1 ((h x).2 (by simp [hx])) with e | e
        · exact absurd (q1 x hx) (by rw [e]; exact lt_irrefl _)
        · exact e

variable {K G : Type} [Field K] [LinearOrder K] [IsStrictOrderedRing K] [LinearOrder G]

/-- A map with the values of `f`: the keys increase strictly and the entries are the non-empty values of `f`. -/
def MapOf {V : Type} (m : List (G × List V)) (f : G → List V) : Prop :=
  m.Pairwise (fun a b => a.1 < b.1) ∧ ∀ k l, (k, l) ∈ m ↔ l = f k ∧ l ≠ []

theorem mapPush_keys {V : Type} (k : G) (v : V) : ∀ (m : List (G × List V)) (x : G × List V), x ∈ mapPush k v m → x.1 = k ∨ ∃ y ∈ m, y.1 = x.1 := by
  intro m
  induction m with
  | nil => intro x hx; simp [mapPush] at hx; left; rw [hx]
  | cons p m ih =>
    intro x hx
    obtain ⟨k', l⟩ := p
    unfold mapPush at hx
    split at hx
    · rcases List.mem_cons.1 hx with e | e
      · left; rw [e]
      · right; exact ⟨x, e, rfl⟩
    · split at hx
      · rcases List.mem_cons.1 hx with e | e
        · right; exact ⟨(k', l), by simp, by rw [e]⟩
        · right; exact ⟨x, by simp [e], rfl⟩
      · rcases List.mem_cons.1 hx with e | e
        · right; exact ⟨(k', l), by simp, by rw [e]⟩
        · rcases ih x e with h | ⟨y, h1, h2⟩
          · left; exact h
          · right; exact ⟨y, by simp [h1], h2⟩

theorem mapPush_sorted {V : Type} (k : G) (v : V) : ∀ (m : List (G × List V)), m.Pairwise (fun a b => a.1 < b.1) →
    (mapPush k v m).Pairwise (fun a b => a.1 < b.1) := by
  intro m
  induction m with
  | nil => intro _; simp [mapPush]
  | cons p m ih =>
    intro h
    obtain ⟨k', l⟩ := p
    obtain ⟨h1, h2⟩ := List.pairwise_cons.1 h
    unfold mapPush
    split
    · rename_i hk
      refine List.pairwise_cons.2 ⟨?_, h⟩
      intro x hx
      rcases List.mem_cons.1 hx with e | e
      · rw [e]; exact hk
      · exact lt_trans hk (h1 x e)
    · split
      · exact List.pairwise_cons.2 ⟨h1, h2⟩
      · rename_i hk hne
        refine List.pairwise_cons.2 ⟨?_, ih h2⟩
        intro x hx
        rcases mapPush_keys k v m x hx with e | ⟨y, e1, e2⟩
        · change k' < x.1
          rw [e]
          exact lt_of_le_of_ne (not_lt.1 hk) (fun h => hne h.symm)
        · change k' < x.1
          rw [← e2]
          exact h1 y e1

theorem mapPush_mem {V : Type} (k : G) (v : V) : ∀ (m : List (G × List V)), m.Pairwise (fun a b => a.1 < b.1) → ∀ (k' : G) (l : List V),
    (k', l) ∈ mapPush k v m ↔ (k' ≠ k ∧ (k', l) ∈ m) ∨ (k' = k ∧ ((∃ l', (k, l') ∈ m ∧ l = l' ++ [v]) ∨ ((∀ l', (k, l') ∉ m) ∧ l = [v]))) := by
  intro m
  induction m with
  | nil =>
    intro _ k' l
    simp only [mapPush, List.mem_singleton, Prod.mk.injEq, List.not_mem_nil, not_false_eq_true, implies_true, true_and, and_false,
      false_and, exists_false, false_or]
  | cons p m ih =>
    intro h k' l
    obtain ⟨q, l0⟩ := p
    obtain ⟨h1, h2⟩ := List.pairwise_cons.1 h
    unfold mapPush
    split
    · rename_i hk
      have hno : ∀ l', (k, l') ∉ (q, l0) :: m := by
        intro l' hm
        rcases List.mem_cons.1 hm with e | e
        · rw [Prod.mk.injEq] at e; rw [e.1] at hk; exact lt_irrefl _ hk
        · exact lt_irrefl k (lt_trans hk (h1 _ e))
      rw [List.mem_cons, Prod.mk.injEq]
      constructor
      · rintro (⟨e1, e2⟩ | e)
        · exact Or.inr ⟨e1, Or.inr ⟨hno, e2⟩⟩
        · refine Or.inl ⟨?_, e⟩
          intro hkk; subst hkk; exact hno l e
      · rintro (⟨_, e⟩ | ⟨e1, ⟨l', e2, _⟩ | ⟨_, e3⟩⟩)
        · exact Or.inr e
        · exact absurd e2 (hno l')
        · exact Or.inl ⟨e1, e3⟩
    · split
      · rename_i hk hq
        subst hq
        have hno : ∀ l', (k, l') ∉ m := fun l' hm => lt_irrefl k (h1 _ hm)
        rw [List.mem_cons, Prod.mk.injEq]
        constructor
        · rintro (⟨e1, e2⟩ | e)
          · exact Or.inr ⟨e1, Or.inl ⟨l0, by simp, e2⟩⟩
          · refine Or.inl ⟨?_, by simp [e]⟩
            intro hkk; subst hkk; exact hno l e
        · rintro (⟨e0, e⟩ | ⟨e1, ⟨l', e2, e3⟩ | ⟨e2, e3⟩⟩)
          · rcases List.mem_cons.1 e with e | e
            · exact absurd (Prod.mk.inj e).1 e0
            · exact Or.inr e
          · rcases List.mem_cons.1 e2 with e | e
            · exact Or.inl ⟨e1, by rw [e3, (Prod.mk.inj e).2]⟩
            · exact absurd e (hno l')
          · exact absurd (by simp) (e2 l0)
      · rename_i hk hne
        rw [List.mem_cons, ih h2, Prod.mk.injEq]
        constructor
        · rintro (⟨e1, e2⟩ | ⟨e1, e2⟩ | ⟨e1, ⟨l', e2, e3⟩ | ⟨e2, e3⟩⟩)
          · exact Or.inl ⟨by rw [e1]; exact fun h => hne h.symm, by rw [e1, e2]; simp⟩
          · exact Or.inl ⟨e1, by simp [e2]⟩
          · exact Or.inr ⟨e1, Or.inl ⟨l', by simp [e2], e3⟩⟩
          · refine Or.inr ⟨e1, Or.inr ⟨?_, e3⟩⟩
            intro l' hm
            rcases List.mem_cons.1 hm with e | e
            · exact hne (Prod.mk.inj e).1
            · exact e2 l' e
        · rintro (⟨e1, e2⟩ | ⟨e1, ⟨l', e2, e3⟩ | ⟨e2, e3⟩⟩)
          · rcases List.mem_cons.1 e2 with e | e
            · exact Or.inl (Prod.mk.inj e)
            · exact Or.inr (Or.inl ⟨e1, e⟩)
          · rcases List.mem_cons.1 e2 with e | e
            · exact absurd (Prod.mk.inj e).1 hne
            · exact Or.inr (Or.inr ⟨e1, Or.inl ⟨l', e, e3⟩⟩)
          · exact Or.inr (Or.inr ⟨e1, Or.inr ⟨fun l' hm => e2 l' (by simp [hm]), e3⟩⟩)

theorem MapOf.push {V : Type} {m : List (G × List V)} {f : G → List V} (h : MapOf m f) (k : G) (v : V) :
    MapOf (mapPush k v m) (fun q => if q = k then f k ++ [v] else f q) := by
  refine ⟨mapPush_sorted k v m h.1, fun q l => ?_⟩
  rw [mapPush_mem k v m h.1]
  by_cases hq : q = k
  · subst hq
    simp only [ne_eq, not_true_eq_false, false_and, true_and, false_or, if_true]
    constructor
    · rintro (⟨l', e1, e2⟩ | ⟨e1, e2⟩)
      · rw [e2, ((h.2 q l').1 e1).1]; simp
      · have : f q = [] := by
          by_contra hne
          exact e1 (f q) ((h.2 q (f q)).2 ⟨rfl, hne⟩)
        rw [e2, this]; simp
    · rintro ⟨e1, _⟩
      by_cases hf : f q = []
      · right
        refine ⟨fun l' hm => ?_, by rw [e1, hf]; rfl⟩
        have := (h.2 q l').1 hm
        exact this.2 (by rw [this.1, hf])
      · left
        exact ⟨f q, (h.2 q _).2 ⟨rfl, hf⟩, e1⟩
  · simp only [hq, ne_eq, not_false_eq_true, true_and, false_and, or_false, if_false]
    exact h.2 q l

theorem MapOf.nil {V : Type} : MapOf ([] : List (G × List V)) (fun _ => []) :=
  ⟨by simp, fun k l => by simp⟩

/-! ## Samples of a list of elements -/

/-- A sample is in the support of a line of the element seen in the spectrum. -/
def Covered (e : E K G) (p : ℤ) : Prop := ∃ k, k < e.sup.n ∧ (e.sup.theo k).out = false ∧ e.sup.sup.s k ≤ p ∧ p ≤ e.sup.sup.e k

/-- A sample is covered by an element of the list. -/
def CoveredBy (es : List (E K G)) (idx : List Nat) (p : ℤ) : Prop := ∃ i ∈ idx, ∃ e, es[i]? = some e ∧ Covered e p

theorem zrange_mem (r : ℤ × ℤ) (p : ℤ) : p ∈ zrange r ↔ r.1 ≤ p ∧ p ≤ r.2 := by
  unfold zrange
  simp only [List.mem_map, List.mem_range]
  constructor
  · rintro ⟨k, h1, h2⟩; omega
  · rintro ⟨h1, h2⟩; exact ⟨(p - r.1).toNat, by omega, by omega⟩

theorem support_mem (e : E K G) (p : ℤ) : (∃ r ∈ e.sup.getSupport, r.1 ≤ p ∧ p ≤ r.2) ↔ Covered e p := by
  unfold EltSup.Elt.getSupport Covered
  split
  · rename_i h
    constructor
    · rintro ⟨r, h1, _⟩; simp at h1
    · rintro ⟨k, h1, h2, _⟩
      unfold EltSup.Elt.outside at h
      rw [List.all_eq_true] at h
      rw [h k (List.mem_range.2 h1)] at h2
      exact absurd h2 (by simp)
  · simp only [List.mem_map, List.mem_filter, List.mem_range, Bool.not_eq_true']
    constructor
    · rintro ⟨r, ⟨k, ⟨h1, h2⟩, rfl⟩, h3⟩; exact ⟨k, h1, h2, h3⟩
    · rintro ⟨k, h1, h2, h3⟩; exact ⟨_, ⟨k, ⟨h1, h2⟩, rfl⟩, h3⟩

theorem covered_inside {e : E K G} {p : ℤ} (h : Covered e p) : e.sup.outside = false := by
  obtain ⟨k, h1, h2, _⟩ := h
  by_contra hc
  have hc : e.sup.outside = true := by simpa using hc
  unfold EltSup.Elt.outside at hc
  rw [List.all_eq_true] at hc
  rw [hc k (List.mem_range.2 h1)] at h2
  exact absurd h2 (by simp)

/-- **C74** The samples of a list of elements: strictly increasing, and exactly the samples covered by a visible line of
one of the elements. -/
theorem C74_support (es : List (E K G)) (idx : List Nat) (hi : ∀ i ∈ idx, i < es.length) :
    ∃ l, supportIndexes es idx = .ok l ∧ l.Pairwise (· < ·) ∧ ∀ p, p ∈ l ↔ CoveredBy es idx p := by
  unfold supportIndexes
  obtain ⟨s, h1, h2⟩ := foldL_inv (fun pre (acc : List (ℤ × ℤ)) => ∀ p, (∃ r ∈ acc, r.1 ≤ p ∧ p ≤ r.2) ↔ CoveredBy es pre p) idx [] []
    (by intro p; unfold CoveredBy; simp)
    (f := fun i acc => Res.at_ es i >>= fun e => if e.sup.outside then .ok acc else .ok (acc ++ e.sup.getSupport))
    (by
      intro pre i acc him hP
      have hl := hi i him
      rw [Res.at_of_lt hl, Res.bind_ok]
      have key : ∀ p, CoveredBy es (pre ++ [i]) p ↔ CoveredBy es pre p ∨ Covered es[i] p := by
        intro p
        unfold CoveredBy
        constructor
        · rintro ⟨j, hj, e, h1, h2⟩
          rcases List.mem_append.1 hj with hj | hj
          · exact Or.inl ⟨j, hj, e, h1, h2⟩
          · rw [List.mem_singleton] at hj
            subst hj
            rw [List.getElem?_eq_getElem hl] at h1
            cases h1
            exact Or.inr h2
        · rintro (⟨j, hj, e, h1, h2⟩ | h)
          · exact ⟨j, by simp [hj], e, h1, h2⟩
          · exact ⟨i, by simp, es[i], List.getElem?_eq_getElem hl, h⟩
      split
      · rename_i ho
        refine ⟨_, rfl, fun p => ?_⟩
        rw [key, hP]
        constructor
        · exact Or.inl
        · rintro (h | h)
          · exact h
          · rw [covered_inside h] at ho; exact absurd ho (by simp)
      · refine ⟨_, rfl, fun p => ?_⟩
        rw [key, ← hP, ← support_mem]
        simp only [List.mem_append]
        constructor
        · rintro ⟨r, h | h, h'⟩
          · exact Or.inl ⟨r, h, h'⟩
          · exact Or.inr ⟨r, h, h'⟩
        · rintro (⟨r, h, h'⟩ | ⟨r, h, h'⟩)
          · exact ⟨r, Or.inl h, h'⟩
          · exact ⟨r, Or.inr h, h'⟩)
  rw [h1, Res.bind_ok]
  refine ⟨_, rfl, sortUniq_sorted _, fun p => ?_⟩
  rw [sortUniq_mem, List.mem_flatMap]
  have := h2 p
  rw [List.nil_append] at this
  rw [← this]
  constructor
  · rintro ⟨r, h, h'⟩; exact ⟨r, h, (zrange_mem r p).1 h'⟩
  · rintro ⟨r, h, h'⟩; exact ⟨r, h, (zrange_mem r p).2 h'⟩

/-! ## Fitting groups -/

/-- The elements that are considered: the listed ones, all of them for an empty list. -/
def asked (es : List (E K G)) (idx : List Nat) : List Nat := if idx = [] then List.range es.length else idx

/-- Element `i` has the type asked for and belongs to the group `k`. -/
def inGroup (es : List (E K G)) (filter : Amp.LType) (k : G) (i : Nat) : Bool := match es[i]? with
  | none => false
  | some e => (decide (filter = .all) || decide (e.type = filter)) && decide (e.group = k)

/-- **C74** The fitting groups: one entry for each group name other than the undefined one, in the order of the names, with
the considered elements of that group in the order of the list; no empty entry. -/
theorem C74_groups (undef : G) (es : List (E K G)) (idx : List Nat) (filter : Amp.LType) (hi : ∀ i ∈ idx, i < es.length) :
    ∃ m, fittingGroups undef es idx filter = .ok m ∧
      MapOf m (fun k => if k = undef then [] else (asked es idx).filter (inGroup es filter k)) := by
  unfold fittingGroups
  have hi' : ∀ i ∈ asked es idx, i < es.length := by
    unfold asked
    split
    · intro i h; exact List.mem_range.1 h
    · exact hi
  obtain ⟨s, h1, h2⟩ := foldL_inv (fun pre (m : List (G × List Nat)) =>
      MapOf m (fun k => if k = undef then [] else pre.filter (inGroup es filter k))) (asked es idx) [] []
    (by
      have : (fun k : G => if k = undef then [] else ([] : List Nat).filter (inGroup es filter k)) = fun _ => [] := by
        funext k; simp
      rw [this]
      exact MapOf.nil)
    (f := fun i m => Res.at_ es i >>= fun e =>
      if typeKept filter e.type = false then .ok m
      else if e.group = undef then .ok m
      else .ok (mapPush e.group i m))
    (by
      intro pre i m him hP
      have hl := hi' i him
      rw [Res.at_of_lt hl, Res.bind_ok]
      have hin : ∀ k, inGroup es filter k i = (typeKept filter es[i].type && decide (es[i].group = k)) := by
        intro k
        unfold inGroup typeKept
        rw [List.getElem?_eq_getElem hl]
        simp only
        rw [show decide (filter = es[i].type) = decide (es[i].type = filter) from decide_eq_decide.2 eq_comm]
      split
      · rename_i ht
        refine ⟨_, rfl, ?_⟩
        have : (fun k => if k = undef then [] else (pre ++ [i]).filter (inGroup es filter k)) =
            fun k => if k = undef then [] else pre.filter (inGroup es filter k) := by
          funext k
          rw [List.filter_append]
          simp [hin, ht]
        rw [this]
        exact hP
      · rename_i ht
        have ht : typeKept filter es[i].type = true := by simpa using ht
        split
        · rename_i hu
          refine ⟨_, rfl, ?_⟩
          have : (fun k => if k = undef then [] else (pre ++ [i]).filter (inGroup es filter k)) =
              fun k => if k = undef then [] else pre.filter (inGroup es filter k) := by
            funext k
            rw [List.filter_append]
            by_cases hk : k = undef
            · simp [hk]
            · have : es[i].group ≠ k := by rw [hu]; exact fun h => hk h.symm
              simp [hin, ht, this]
          rw [this]
          exact hP
        · rename_i hu
          refine ⟨_, rfl, ?_⟩
          have := hP.push es[i].group i
          refine Eq.mp (congrArg _ ?_) this
          funext k
          by_cases hk : k = es[i].group
          · subst hk
            simp only [if_true, hu, if_false]
            rw [List.filter_append]
            simp [hin, ht]
          · rw [if_neg hk]
            by_cases hku : k = undef
            · rw [if_pos hku, if_pos hku]
            · rw [if_neg hku, if_neg hku, List.filter_append]
              have : es[i].group ≠ k := fun h => hk h.symm
              simp [hin, this])
  rw [List.nil_append] at h2
  exact ⟨s, h1, h2⟩

/-! ## Amplitude offsets -/

theorem offsetSamples_spec (poly : K → K) (axis : List K) : ∀ (l : List ℤ) (flux mask : List K), flux.length = axis.length → mask.length = axis.length →
    l.Pairwise (· < ·) → (∀ p ∈ l, 0 ≤ p ∧ p < axis.length) →
    ∃ st, offsetSamples poly axis l (flux, mask) = .ok st ∧ st.1.length = axis.length ∧ st.2.length = axis.length ∧
      ∀ (p : Nat) x y m, axis[p]? = some x → flux[p]? = some y → mask[p]? = some m →
        (((p : ℤ) ∈ l → st.1[p]? = some (y + poly x * m) ∧ st.2[p]? = some 0) ∧
          ((p : ℤ) ∉ l → st.1[p]? = some y ∧ st.2[p]? = some m)) := by
  intro l
  induction l with
  | nil =>
    intro flux mask hf hm _ _
    refine ⟨(flux, mask), rfl, hf, hm, ?_⟩
    intro p x y m hx hy hm'
    exact ⟨fun h => absurd h (by simp), fun _ => ⟨hy, hm'⟩⟩
  | cons s l ih =>
    intro flux mask hf hm hs hb
    obtain ⟨h0, hlt⟩ := hb s (by simp)
    obtain ⟨hs1, hs2⟩ := List.pairwise_cons.1 hs
    have hn : s.toNat < axis.length := by omega
    obtain ⟨st, k1, k2, k3, k4⟩ := ih (flux.set s.toNat (flux[s.toNat] + poly axis[s.toNat] * mask[s.toNat])) (mask.set s.toNat 0)
      (by simpa using hf) (by simpa using hm) hs2 (fun p hp => hb p (by simp [hp]))
    refine ⟨st, ?_, k2, k3, ?_⟩
    · unfold offsetSamples foldL
      rw [if_neg (not_lt.2 h0), Res.at_of_lt (by simpa [hf] using hn), Res.bind_ok, Res.at_of_lt hn, Res.bind_ok,
        Res.at_of_lt (by simpa [hm] using hn), Res.bind_ok, Res.bind_ok]
      exact k1
    · intro p x y m hx hy hm'
      by_cases hp : p = s.toNat
      · subst hp
        have hnl : ((s.toNat : Nat) : ℤ) ∉ l := by
          intro h
          have := hs1 _ h
          omega
        have := (k4 s.toNat x (flux[s.toNat] + poly axis[s.toNat] * mask[s.toNat]) 0 hx
          (by rw [List.getElem?_set_self (by omega)]) (by rw [List.getElem?_set_self (by omega)])).2 hnl
        have e1 : flux[s.toNat] = y := by rw [List.getElem?_eq_getElem (by omega)] at hy; exact Option.some.inj hy
        have e2 : axis[s.toNat] = x := by rw [List.getElem?_eq_getElem (by omega)] at hx; exact Option.some.inj hx
        have e3 : mask[s.toNat] = m := by rw [List.getElem?_eq_getElem (by omega)] at hm'; exact Option.some.inj hm'
        rw [e1, e2, e3] at this
        refine ⟨fun _ => this, fun h => absurd ?_ h⟩
        rw [Int.toNat_of_nonneg h0]; simp
      · have := k4 p x y m hx (by rw [List.getElem?_set_ne (by omega)]; exact hy) (by rw [List.getElem?_set_ne (by omega)]; exact hm')
        have hps : (p : ℤ) ≠ s := by omega
        refine ⟨fun h => this.1 ?_, fun h => this.2 ?_⟩
        · rcases List.mem_cons.1 h with e | e
          · exact absurd e hps
          · exact e
        · intro h'; exact h (by simp [h'])

/-- Group `k` covers sample `p`. -/
def GroupCovers (undef : G) (es : List (E K G)) (idx : List Nat) (filter : Amp.LType) (k : G) (p : ℤ) : Prop :=
  k ≠ undef ∧ CoveredBy es ((asked es idx).filter (inGroup es filter k)) p

/-- The effect of the groups of a map on the flux and the mask. -/
theorem offsets_fold (es : List (E K G)) (axis : List K) (flux : List K) (hf : flux.length = axis.length)
    (hb : ∀ e ∈ es, ∀ p, Covered e p → 0 ≤ p ∧ p < axis.length) (m : List (G × List Nat)) (hm : m.Pairwise (fun a b => a.1 < b.1))
    (hl : ∀ g ∈ m, g.2 ≠ [] ∧ ∀ i ∈ g.2, i < es.length) :
    ∃ st, foldL (fun g st => offsetGroup es axis g.2 st) m (flux, List.replicate flux.length 1) = .ok st ∧ st.1.length = axis.length ∧
      ∀ (p : Nat) x y, axis[p]? = some x → flux[p]? = some y →
        (((∀ g ∈ m, ¬ CoveredBy es g.2 p) → st.1[p]? = some y) ∧
          ∀ g ∈ m, CoveredBy es g.2 p → (∀ g' ∈ m, g'.1 < g.1 → ¬ CoveredBy es g'.2 p) →
            ∃ i e, g.2.head? = some i ∧ es[i]? = some e ∧ st.1[p]? = some (y + e.poly x)) := by
  have hb' : ∀ idx p, CoveredBy es idx p → 0 ≤ p ∧ p < axis.length := by
    rintro idx p ⟨i, _, e, h1, h2⟩
    exact hb e (List.mem_of_getElem? h1) p h2
  obtain ⟨st, h1, h2⟩ := foldL_inv (fun pre (st : List K × List K) => st.1.length = axis.length ∧ st.2.length = axis.length ∧
      ((pre.Pairwise (fun a b => a.1 < b.1)) → ∀ (p : Nat) x y, axis[p]? = some x → flux[p]? = some y →
        (((∀ g ∈ pre, ¬ CoveredBy es g.2 p) → st.1[p]? = some y ∧ st.2[p]? = some 1) ∧
          ((∃ g ∈ pre, CoveredBy es g.2 p) → st.2[p]? = some 0) ∧
          ∀ g ∈ pre, CoveredBy es g.2 p → (∀ g' ∈ pre, g'.1 < g.1 → ¬ CoveredBy es g'.2 p) →
            ∃ i e, g.2.head? = some i ∧ es[i]? = some e ∧ st.1[p]? = some (y + e.poly x)))) m [] (flux, List.replicate flux.length 1)
    (by
      refine ⟨hf, by simpa using hf, fun _ p x y hx hy => ⟨fun _ => ⟨hy, ?_⟩, ?_, ?_⟩⟩
      · rw [List.getElem?_replicate]
        have : p < flux.length := by
          by_contra hc
          rw [List.getElem?_eq_none (by omega)] at hy
          exact absurd hy (by simp)
        simp [this]
      · rintro ⟨g, h, _⟩; simp at h
      · intro g h; simp at h)
    (f := fun g st => offsetGroup es axis g.2 st)
    (by
      rintro pre ⟨k, g⟩ ⟨fl, mk⟩ hmem ⟨c1, c2, c3⟩
      obtain ⟨hne, hlt⟩ := hl _ hmem
      obtain ⟨l, s1, s2, s3⟩ := C74_support es g hlt
      obtain ⟨i, g', rfl⟩ := List.exists_cons_of_ne_nil hne
      have hil := hlt i (by simp)
      obtain ⟨st, t1, t2, t3, t4⟩ := offsetSamples_spec es[i].poly axis l fl mk c1 c2 s2 (fun p hp => hb' _ p ((s3 p).1 hp))
      refine ⟨st, ?_, t2, t3, ?_⟩
      · unfold offsetGroup
        rw [s1, Res.bind_ok, Res.at_of_lt (by simp : 0 < (i :: g').length), Res.bind_ok]
        change (Res.at_ es i >>= fun e => _) = _
        rw [Res.at_of_lt hil, Res.bind_ok]
        exact t1
      · intro hpw p x y hx hy
        have hpw1 := (List.pairwise_append.1 hpw).1
        have hpw2 := (List.pairwise_append.1 hpw).2.2
        obtain ⟨d1, d2, d3⟩ := c3 hpw1 p x y hx hy
        have hp : p < axis.length := by
          by_contra hc
          rw [List.getElem?_eq_none (by omega)] at hx
          exact absurd hx (by simp)
        have c1' : fl.length = axis.length := c1
        have c2' : mk.length = axis.length := c2
        have hfl : fl[p]? = some fl[p] := List.getElem?_eq_getElem (by omega)
        have hmk : mk[p]? = some mk[p] := List.getElem?_eq_getElem (by omega)
        obtain ⟨t5, t6⟩ := t4 p x fl[p] mk[p] hx hfl hmk
        rw [s3] at t5 t6
        refine ⟨?_, ?_, ?_⟩
        · intro hn
          have hn1 := hn (k, i :: g') (by simp)
          obtain ⟨e1, e2⟩ := d1 (fun g hg => hn g (by simp [hg]))
          obtain ⟨f1, f2⟩ := t6 hn1
          rw [f1, f2]
          simp only at e1 e2
          rw [hfl] at e1
          rw [hmk] at e2
          exact ⟨e1, e2⟩
        · rintro ⟨q, hq, hc⟩
          by_cases hcg : CoveredBy es (i :: g') p
          · exact (t5 hcg).2
          · rw [(t6 hcg).2]
            rcases List.mem_append.1 hq with hq | hq
            · have := d2 ⟨q, hq, hc⟩
              simp only at this
              rw [hmk] at this
              exact this
            · rw [List.mem_singleton] at hq
              subst hq
              exact absurd hc hcg
        · intro q hq hc hfirst
          rcases List.mem_append.1 hq with hq | hq
          · obtain ⟨i', e', u1, u2, u3⟩ := d3 q hq hc (fun r hr hlt' => hfirst r (by simp [hr]) hlt')
            refine ⟨i', e', u1, u2, ?_⟩
            simp only at u3
            rw [hfl] at u3
            have hm0 : mk[p] = 0 := by
              have := d2 ⟨q, hq, hc⟩
              simp only at this
              rw [hmk] at this
              exact Option.some.inj this
            by_cases hcg : CoveredBy es (i :: g') p
            · rw [(t5 hcg).1, hm0, mul_zero, add_zero]; exact u3
            · rw [(t6 hcg).1]; exact u3
          · rw [List.mem_singleton] at hq
            subst hq
            have hnone : ∀ r ∈ pre, ¬ CoveredBy es r.2 p := fun r hr =>
              hfirst r (by simp [hr]) (hpw2 r hr _ (by simp))
            obtain ⟨e1, e2⟩ := d1 hnone
            simp only at e1 e2
            rw [hfl] at e1
            rw [hmk] at e2
            refine ⟨i, es[i], rfl, List.getElem?_eq_getElem hil, ?_⟩
            rw [(t5 hc).1, Option.some.inj e1, Option.some.inj e2, mul_one])
  refine ⟨st, h1, h2.1, fun p x y hx hy => ?_⟩
  rw [List.nil_append] at h2
  obtain ⟨a, b, c⟩ := h2.2.2 hm p x y hx hy
  exact ⟨fun h => (a h).1, c⟩

/-- **C74** Adding the amplitude offsets: a sample covered by no fitting group is not changed; any other sample receives,
once, the polynomial of the first group (in the order of the names) covering it, taken from the first element of that
group. -/
theorem C74_offset (undef : G) (es : List (E K G)) (axis flux : List K) (idx : List Nat) (filter : Amp.LType) (hf : flux.length = axis.length)
    (hi : ∀ i ∈ idx, i < es.length) (hb : ∀ e ∈ es, ∀ p, Covered e p → 0 ≤ p ∧ p < axis.length) :
    ∃ r, addOffsets undef es axis flux idx filter = .ok r ∧ r.length = flux.length ∧
      ∀ (p : Nat) x y, axis[p]? = some x → flux[p]? = some y →
        (((∀ k, ¬ GroupCovers undef es idx filter k p) → r[p]? = some y) ∧
          ∀ k, GroupCovers undef es idx filter k p → (∀ k', k' < k → ¬ GroupCovers undef es idx filter k' p) →
            ∃ i e, ((asked es idx).find? (inGroup es filter k)) = some i ∧ es[i]? = some e ∧ r[p]? = some (y + e.poly x)) := by
  obtain ⟨m, h1, h2, h3⟩ := C74_groups undef es idx filter hi
  simp only at h3
  have hi' : ∀ i ∈ asked es idx, i < es.length := by
    unfold asked
    split
    · intro i h; exact List.mem_range.1 h
    · exact hi
  have hent : ∀ k l, (k, l) ∈ m → k ≠ undef ∧ l = (asked es idx).filter (inGroup es filter k) := by
    intro k l h
    obtain ⟨e1, e2⟩ := (h3 k l).1 h
    by_cases hk : k = undef
    · rw [if_pos hk] at e1; exact absurd e1 e2
    · rw [if_neg hk] at e1; exact ⟨hk, e1⟩
  obtain ⟨st, k1, k2, k3⟩ := offsets_fold es axis flux hf hb m h2 (by
    rintro ⟨k, l⟩ h
    refine ⟨((h3 k l).1 h).2, fun i hil => hi' i ?_⟩
    rw [(hent k l h).2] at hil
    exact (List.mem_filter.1 hil).1)
  refine ⟨st.1, ?_, by rw [k2, hf], ?_⟩
  · unfold addOffsets
    rw [h1, Res.bind_ok, k1, Res.bind_ok]
  · intro p x y hx hy
    obtain ⟨a, b⟩ := k3 p x y hx hy
    refine ⟨fun hn => a ?_, ?_⟩
    · rintro ⟨k, l⟩ h hc
      obtain ⟨e1, e2⟩ := hent k l h
      exact hn k ⟨e1, by rw [← e2]; exact hc⟩
    · rintro k ⟨hk, hc⟩ hfirst
      have hmem : (k, (asked es idx).filter (inGroup es filter k)) ∈ m := by
        rw [h3, if_neg hk]
        refine ⟨rfl, ?_⟩
        obtain ⟨i, hi, _⟩ := hc
        exact List.ne_nil_of_mem hi
      obtain ⟨i, e, u1, u2, u3⟩ := b _ hmem hc (by
        rintro ⟨k', l'⟩ h hlt hc'
        obtain ⟨e1, e2⟩ := hent k' l' h
        exact hfirst k' hlt ⟨e1, by rw [← e2]; exact hc'⟩)
      exact ⟨i, e, by rw [← List.head?_filter]; exact u1, u2, u3⟩

/-! ## Example for C74 -/

/-- One element with one line whose support is given. -/
def exE (s e : ℤ) (g : Nat) (c : ℚ) : E ℚ Nat := ⟨⟨1, fun _ => ⟨s, e, false⟩, ⟨fun _ => s, fun _ => e, fun a b => decide (a = b)⟩⟩, .emission, g,
  fun x => c + x, fun _ => 0, fun _ => 0, []⟩

/-- Three elements on seven samples: the first two share sample 3 and are in different groups, the third has no group. -/
def exEs : List (E ℚ Nat) := [exE 1 3 2 10, exE 3 4 1 20, exE 5 5 0 30]

example : (∀ i ∈ [2, 0, 1], i < exEs.length) ∧ ∀ e ∈ exEs, ∀ p, Covered e p → 0 ≤ p ∧ p < 7 := by
  refine ⟨by decide, ?_⟩
  intro e he p hp
  simp only [exEs, List.mem_cons, List.not_mem_nil, or_false] at he
  rcases he with rfl | rfl | rfl <;> (obtain ⟨k, _, _, h1, h2⟩ := hp; simp only [exE] at h1 h2; omega)

/-- The sample shared by the groups 1 and 2 receives the polynomial of group 1 only. -/
example : addOffsets 0 exEs [0, 1, 2, 3, 4, 5, 6] [0, 0, 0, 0, 0, 0, 0] [] .all = .ok [0, 11, 12, 23, 24, 0, 0] ∧
    addOffsets 0 exEs [0, 1, 2, 3, 4, 5, 6] [0, 0, 0, 0, 0, 0, 0] [0] .all = .ok [0, 11, 12, 13, 0, 0, 0] ∧
    addOffsets 0 exEs [0, 1, 2, 3, 4, 5, 6] [0, 0, 0, 0, 0, 0, 0] [] .absorption = .ok [0, 0, 0, 0, 0, 0, 0] := by
  decide +kernel

/-- An empty list of elements stands for all of them: offsets are added although no element was asked for. -/
theorem C74_empty_list_counterexample :
    ∃ es : List (E ℚ Nat), ∃ p : Nat, ¬ CoveredBy es [] p ∧
      (addOffsets 0 es [0, 1, 2] [0, 0, 0] [] .all).bind (fun r => .ok (r[p]?)) = .ok (some 11) := by
  refine ⟨[exE 1 1 2 10], 1, ?_, by decide +kernel⟩
  rintro ⟨i, h, _⟩
  simp at h

end EltList
end Amazed
