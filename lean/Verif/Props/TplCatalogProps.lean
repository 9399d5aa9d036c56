import Mathlib.Tactic.Linarith
import Mathlib.Tactic.Tauto
import Verif.Model.TplCatalog

/-! # C41: template catalogue -/

set_option linter.unusedSectionVars false

namespace Amazed
namespace TplCat

section
variable {τ L : Type}

/-- Specification: the template at position `j` of a list, if there is one. -/
def slot (c : Cat τ L) (o l : Bool) (cat : String) (j : Nat) : Option τ := (get c o l cat).getD j none

/-- Specification: the lists that depend on the list `(o, l)`, itself included: the orthogonalised and the log-sampled
templates come from the original ones, the log-sampled orthogonalised ones from the log-sampled ones. -/
def Derived (o l o' l' : Bool) : Prop := (o' = o ∧ l' = l) ∨ (o = false ∧ (l = true → l' = true))

instance (o l o' l' : Bool) : Decidable (Derived o l o' l') := by unfold Derived; infer_instance

/-- Specification: every derived template stands at the position of a template it comes from, `S t t'` meaning that `t'`
comes from `t`. -/
def Linked (S : τ → τ → Prop) (c : Cat τ L) : Prop :=
  ∀ cat j t', (slot c true false cat j = some t' → ∃ t, slot c false false cat j = some t ∧ S t t') ∧
    (slot c false true cat j = some t' → ∃ t, slot c false false cat j = some t ∧ S t t') ∧
    (slot c true true cat j = some t' → ∃ t, slot c false true cat j = some t ∧ S t t')

theorem Linked.weaken {S : τ → τ → Prop} {c : Cat τ L} (h : Linked S c) : Linked (fun _ _ => True) c := fun cat j t' =>
  ⟨fun e => (h cat j t').1 e |>.imp fun _ q => ⟨q.1, trivial⟩, fun e => (h cat j t').2.1 e |>.imp fun _ q => ⟨q.1, trivial⟩,
    fun e => (h cat j t').2.2 e |>.imp fun _ q => ⟨q.1, trivial⟩⟩

theorem Linked.none_of_base {S : τ → τ → Prop} {c : Cat τ L} (h : Linked S c) {o l o' l' : Bool} {cat : String} {j : Nat}
    (hd : Derived o l o' l') (hb : slot c o l cat j = none) : slot c o' l' cat j = none := by
  have h1 := fun t' => (h cat j t').1
  have h2 := fun t' => (h cat j t').2.1
  have h3 := fun t' => (h cat j t').2.2
  have k1 : slot c false false cat j = none → slot c true false cat j = none := by
    intro e
    cases e2 : slot c true false cat j with
    | none => rfl
    | some t' => obtain ⟨t, q, _⟩ := h1 t' e2; rw [e] at q; cases q
  have k2 : slot c false false cat j = none → slot c false true cat j = none := by
    intro e
    cases e2 : slot c false true cat j with
    | none => rfl
    | some t' => obtain ⟨t, q, _⟩ := h2 t' e2; rw [e] at q; cases q
  have k3 : slot c false true cat j = none → slot c true true cat j = none := by
    intro e
    cases e2 : slot c true true cat j with
    | none => rfl
    | some t' => obtain ⟨t, q, _⟩ := h3 t' e2; rw [e] at q; cases q
  unfold Derived at hd
  cases o <;> cases l <;> cases o' <;> cases l' <;> simp at hd <;> tauto

/-! ## Basic facts -/

theorem get_put (c : Cat τ L) (o l : Bool) (cat : String) (v : List (Option τ)) (o' l' : Bool) (cat' : String) :
    get (put c o l cat v) o' l' cat' = if o' = o ∧ l' = l ∧ cat' = cat then v else get c o' l' cat' := by
  unfold get put
  simp only
  split_ifs <;> rfl

theorem count_eq (c : Cat τ L) (cat : String) (o l : Bool) : count c cat o l = (get c o l cat).length := by
  unfold count get
  cases c.lists o l cat <;> rfl

theorem count_zero {c : Cat τ L} {cat : String} {o l : Bool} : count c cat o l = 0 ↔ get c o l cat = [] := by
  rw [count_eq, List.length_eq_zero_iff]

theorem slot_put (c : Cat τ L) (o l : Bool) (cat : String) (v : List (Option τ)) (o' l' : Bool) (cat' : String) (j : Nat) :
    slot (put c o l cat v) o' l' cat' j =
      if o' = o ∧ l' = l ∧ cat' = cat then v.getD j none else slot c o' l' cat' j := by
  unfold slot
  rw [get_put]
  split_ifs <;> rfl

theorem slot_nil {c : Cat τ L} {o l : Bool} {cat : String} (h : get c o l cat = []) (j : Nat) : slot c o l cat j = none := by
  unfold slot; rw [h]; rfl

theorem nonNull_zero {c : Cat τ L} {cat : String} {o l : Bool} :
    nonNull c cat o l = 0 ↔ ∀ j, slot c o l cat j = none := by
  unfold nonNull slot
  by_cases h : get c o l cat = []
  · rw [if_pos (count_zero.2 h), h]; simp
  · rw [if_neg (fun e => h (count_zero.1 e)), List.length_eq_zero_iff, List.filter_eq_nil_iff]
    constructor
    · intro q j
      rw [List.getD_eq_getElem?_getD]
      cases e : (get c o l cat)[j]? with
      | none => rfl
      | some x =>
        have := q x (List.mem_of_getElem? e)
        cases x with
        | none => rfl
        | some y => simp at this
    · intro q x hx
      obtain ⟨j, hj, rfl⟩ := List.getElem_of_mem hx
      have := q j
      rw [List.getD_eq_getElem?_getD, List.getElem?_eq_getElem hj] at this
      simp only [Option.getD_some] at this
      rw [this]; simp

theorem getD_set (v : List (Option τ)) (i j : Nat) (x : Option τ) (hi : i < v.length) :
    (v.set i x).getD j none = if j = i then x else v.getD j none := by
  rw [List.getD_eq_getElem?_getD, List.getElem?_set, List.getD_eq_getElem?_getD]
  by_cases h : j = i
  · subst h; simp [hi]
  · rw [if_neg (Ne.symm h), if_neg h]

/-! ## Clearing -/

theorem clearAllOrtho_get (c : Cat τ L) (cat : String) (l o' l' : Bool) (cat' : String) :
    get (clearAllOrtho c cat l) o' l' cat' = if o' = true ∧ l' = l ∧ cat' = cat then [] else get c o' l' cat' := by
  unfold clearAllOrtho
  split_ifs with h1 h2 h3 h4 h5
  · obtain ⟨rfl, rfl, rfl⟩ := h2; exact count_zero.1 h1
  · rfl
  · show get (put c true l cat []) o' l' cat' = _
    rw [get_put, if_pos h4]
  · show get (put c true l cat []) o' l' cat' = _
    rw [get_put, if_neg h4]
  · rw [get_put, if_pos h5]
  · rw [get_put, if_neg h5]

theorem clearAllLog_get (c : Cat τ L) (cat : String) (o' l' : Bool) (cat' : String) :
    get (clearAllLog c cat) o' l' cat' =
      if get c false true cat ≠ [] ∧ l' = true ∧ cat' = cat then [] else get c o' l' cat' := by
  unfold clearAllLog
  by_cases h : get c false true cat = []
  · rw [if_pos (count_zero.2 h), if_neg (by tauto)]
  · rw [if_neg (fun e => h (count_zero.1 e)), clearAllOrtho_get, get_put]
    cases o' <;> cases l' <;> by_cases hc : cat' = cat <;> simp [h, hc]

theorem clearAllOrig_get (c : Cat τ L) (cat : String) (o' l' : Bool) (cat' : String) :
    get (clearAllOrig c cat) o' l' cat' =
      if get c false false cat ≠ [] ∧ (get c false true cat ≠ [] ∨ l' = false) ∧ cat' = cat then []
      else get c o' l' cat' := by
  unfold clearAllOrig
  by_cases h : get c false false cat = []
  · rw [if_pos (count_zero.2 h), if_neg (by tauto)]
  · rw [if_neg (fun e => h (count_zero.1 e)), clearAllLog_get, clearAllOrtho_get, clearAllOrtho_get, get_put, get_put]
    by_cases h2 : get c false true cat = []
    · cases o' <;> cases l' <;> by_cases hc : cat' = cat <;> simp [h, hc, h2]
    · cases o' <;> cases l' <;> by_cases hc : cat' = cat <;> simp [h, hc, h2]

/-- **C41, clearing a list.** Clearing a list removes all templates of the category from it and from the lists that depend
on it, and nothing else. -/
theorem C41_clear_all {S : τ → τ → Prop} (c : Cat τ L) (hl : Linked S c) (cat : String) (o l o' l' : Bool) (cat' : String)
    (j : Nat) :
    slot (clearAll c cat o l) o' l' cat' j = if cat' = cat ∧ Derived o l o' l' then none else slot c o' l' cat' j := by
  have hbase : get c o l cat = [] → cat' = cat → Derived o l o' l' → slot c o' l' cat' j = none := by
    intro h hc hd; subst hc; exact hl.none_of_base hd (slot_nil h j)
  unfold clearAll
  cases o
  · simp only [Bool.false_eq_true, if_false]
    cases l
    · simp only [Bool.false_eq_true, if_false]
      have hd : Derived false false o' l' := Or.inr ⟨rfl, by simp⟩
      by_cases hc : cat' = cat
      · rw [if_pos ⟨hc, hd⟩]
        by_cases h : get c false false cat = []
        · unfold slot; rw [clearAllOrig_get, if_neg (by tauto)]; exact hbase h hc hd
        · by_cases h2 : get c false true cat ≠ [] ∨ l' = false
          · unfold slot; rw [clearAllOrig_get, if_pos ⟨h, h2, hc⟩]; rfl
          · unfold slot; rw [clearAllOrig_get, if_neg (by tauto)]
            push Not at h2
            have hl' : l' = true := by simpa using h2.2
            subst hc hl'
            exact hl.none_of_base (o := false) (l := true) (Or.inr ⟨rfl, by simp⟩) (slot_nil h2.1 j)
      · rw [if_neg (by tauto)]; unfold slot; rw [clearAllOrig_get, if_neg (by tauto)]
    · simp only [if_true]
      unfold slot
      rw [clearAllLog_get]
      by_cases hc : cat' = cat
      · cases l'
        · simp [Derived, hc]
        · have hd : Derived false true o' true := Or.inr ⟨rfl, by simp⟩
          rw [if_pos (show cat' = cat ∧ Derived false true o' true from ⟨hc, hd⟩)]
          by_cases h : get c false true cat = []
          · rw [if_neg (fun q => q.1 h)]; exact hbase h hc hd
          · rw [if_pos ⟨h, rfl, hc⟩]; rfl
      · rw [if_neg (by tauto), if_neg (by tauto)]
  · simp only [if_true]
    unfold slot
    rw [clearAllOrtho_get]
    have : Derived true l o' l' ↔ o' = true ∧ l' = l := by unfold Derived; simp
    by_cases hc : o' = true ∧ l' = l ∧ cat' = cat
    · rw [if_pos hc, if_pos (by tauto)]; rfl
    · rw [if_neg hc, if_neg (by tauto)]

theorem linked_put_none {c : Cat τ L} {cat : String} {o l : Bool} {i : Nat} :
    ∀ o' l' cat' j, (i < (get c o l cat).length) →
      slot (put c o l cat ((get c o l cat).set i none)) o' l' cat' j =
        if (o' = o ∧ l' = l ∧ cat' = cat) ∧ j = i then none else slot c o' l' cat' j := by
  intro o' l' cat' j hi
  rw [slot_put]
  by_cases h : o' = o ∧ l' = l ∧ cat' = cat
  · rw [if_pos h, getD_set _ _ _ _ hi]
    obtain ⟨rfl, rfl, rfl⟩ := h
    simp only [true_and]
    split_ifs <;> rfl
  · rw [if_neg h, if_neg (by tauto)]

/-- At the positions other than `i`, a list that depends on another has no template where the other has none. -/
def Off (c : Cat τ L) (cat : String) (i : Int) : Prop :=
  ∀ o l o' l' (j : Nat), (j : Int) ≠ i → Derived o l o' l' → slot c o l cat j = none → slot c o' l' cat j = none

theorem Linked.off {S : τ → τ → Prop} {c : Cat τ L} (h : Linked S c) (cat : String) (i : Int) : Off c cat i :=
  fun _ _ _ _ _ _ hd hb => h.none_of_base hd hb

/-- One list: the slot is emptied, and when that was the last template of the list, the dependent lists are emptied. -/
theorem dropOne_slot {c : Cat τ L} {cat : String} {o l : Bool} {i : Int} (hl : Off c cat i)
    (hok : (dropOne c cat o l i).2 = .ok ()) :
    0 ≤ i ∧ i < (get c o l cat).length ∧
    (∀ j : Nat, slot (dropOne c cat o l i).1 o l cat j = if (j : Int) = i then none else slot c o l cat j) ∧
    (∀ o' l' cat' (j : Nat), ¬ ((o' = o ∧ l' = l) ∧ cat' = cat) → (j : Int) ≠ i ∨ ¬ Derived o l o' l' ∨ cat' ≠ cat →
      slot (dropOne c cat o l i).1 o' l' cat' j = slot c o' l' cat' j) ∧
    (∀ o' l' j, slot c o' l' cat j = none → slot (dropOne c cat o l i).1 o' l' cat j = none) := by
  unfold dropOne at hok ⊢
  by_cases hr : 0 ≤ i ∧ i < (get c o l cat).length
  swap
  · rw [if_neg hr] at hok; cases hok
  rw [if_pos hr] at hok ⊢
  simp only
  have hin : i.toNat < (get c o l cat).length := by omega
  set c1 := put c o l cat ((get c o l cat).set i.toNat none) with hc1
  have hs := linked_put_none (c := c) (cat := cat) (o := o) (l := l) (i := i.toNat)
  rw [← hc1] at hs
  have hs' : ∀ o' l' cat' j, slot c1 o' l' cat' j =
      if (o' = o ∧ l' = l ∧ cat' = cat) ∧ j = i.toNat then none else slot c o' l' cat' j :=
    fun o' l' cat' j => hs o' l' cat' j hin
  have hji : ∀ j : Nat, j = i.toNat ↔ (j : Int) = i := by intro j; omega
  by_cases hn : nonNull c1 cat o l = 0
  · rw [if_pos hn]
    have hall : ∀ j : Nat, (j : Int) ≠ i → slot c o l cat j = none := by
      intro j hj
      have := nonNull_zero.1 hn j
      rw [hs', if_neg (by rw [hji]; tauto)] at this
      exact this
    -- the slots of c1 are not linked any more at position i; use get directly
    have hget : ∀ o' l' cat', get (clearAll c1 cat o l) o' l' cat' = [] ∨
        get (clearAll c1 cat o l) o' l' cat' = get c1 o' l' cat' := by
      intro o' l' cat'
      unfold clearAll
      cases o
      · cases l
        · simp only [Bool.false_eq_true, if_false]; rw [clearAllOrig_get]; split_ifs <;> tauto
        · simp only [Bool.false_eq_true, if_false, if_true]; rw [clearAllLog_get]; split_ifs <;> tauto
      · simp only [if_true]; rw [clearAllOrtho_get]; split_ifs <;> tauto
    have hslot : ∀ o' l' cat' j, slot (clearAll c1 cat o l) o' l' cat' j = none ∨
        slot (clearAll c1 cat o l) o' l' cat' j = slot c1 o' l' cat' j := by
      intro o' l' cat' j
      rcases hget o' l' cat' with h | h
      · exact Or.inl (slot_nil h j)
      · right; unfold slot; rw [h]
    refine ⟨hr.1, hr.2, fun j => ?_, fun o' l' cat' j h1 h2 => ?_, fun o' l' j h => ?_⟩
    · have : slot (clearAll c1 cat o l) o l cat j = none := by
        rcases hslot o l cat j with h | h
        · exact h
        · rw [h]; exact nonNull_zero.1 hn j
      rw [this]
      split_ifs with h
      · rfl
      · exact (hall j h).symm
    · by_cases hcd : Derived o l o' l' ∧ cat' = cat
      · have hj : (j : Int) ≠ i := by tauto
        have e : slot c o' l' cat' j = none := by
          obtain ⟨hd, rfl⟩ := hcd; exact hl _ _ _ _ _ hj hd (hall j hj)
        rw [e]
        rcases hslot o' l' cat' j with h | h
        · exact h
        · rw [h, hs', if_neg (by tauto), e]
      · -- not derived: the list is untouched
        have hg : get (clearAll c1 cat o l) o' l' cat' = get c1 o' l' cat' := by
          unfold clearAll
          cases o
          · cases l
            · simp only [Bool.false_eq_true, if_false]
              have : cat' ≠ cat := by
                intro hc; exact hcd ⟨Or.inr ⟨rfl, by simp⟩, hc⟩
              rw [clearAllOrig_get, if_neg (by tauto)]
            · simp only [Bool.false_eq_true, if_false, if_true]
              have : ¬ (l' = true ∧ cat' = cat) := by
                rintro ⟨h, hc⟩; exact hcd ⟨Or.inr ⟨rfl, fun _ => h⟩, hc⟩
              rw [clearAllLog_get, if_neg (by tauto)]
          · simp only [if_true]
            have : ¬ (o' = true ∧ l' = l ∧ cat' = cat) := by
              rintro ⟨h, h', hc⟩; exact hcd ⟨Or.inl ⟨h, h'⟩, hc⟩
            rw [clearAllOrtho_get, if_neg this]
        have e : slot (clearAll c1 cat o l) o' l' cat' j = slot c1 o' l' cat' j := by unfold slot; rw [hg]
        rw [e, hs', if_neg (by tauto)]
    · rcases hslot o' l' cat j with h1 | h1
      · exact h1
      · rw [h1, hs']; split_ifs <;> tauto
  · rw [if_neg hn]
    refine ⟨hr.1, hr.2, fun j => ?_, fun o' l' cat' j h1 _ => ?_, fun o' l' j h => ?_⟩
    · rw [hs']
      by_cases h : (j : Int) = i
      · rw [if_pos ⟨by tauto, (hji j).2 h⟩, if_pos h]
      · rw [if_neg (by rw [hji]; tauto), if_neg h]
    · rw [hs', if_neg (by tauto)]
    · rw [hs']; split_ifs <;> tauto

theorem derived_refl (o l : Bool) : Derived o l o l := Or.inl ⟨rfl, rfl⟩

theorem andThen_ok {p : Cat τ L × Res Unit} {f : Cat τ L → Cat τ L × Res Unit} (h : (andThen p f).2 = .ok ()) :
    p.2 = .ok () ∧ andThen p f = f p.1 := by
  unfold andThen at h ⊢
  split at h
  · rename_i u hu; cases u; rw [hu]; exact ⟨rfl, rfl⟩
  · cases h
  · cases h

theorem clearOneOrtho_slot {c : Cat τ L} {cat : String} {l : Bool} {i : Int} (hl : Off c cat i)
    (hok : (clearOneOrtho c cat l i).2 = .ok ()) (o' l' : Bool) (cat' : String) (j : Nat) :
    slot (clearOneOrtho c cat l i).1 o' l' cat' j =
      if cat' = cat ∧ (o' = true ∧ l' = l) ∧ (j : Int) = i then none else slot c o' l' cat' j := by
  unfold clearOneOrtho at hok ⊢
  by_cases h : count c cat true l = 0
  · rw [if_pos h]
    split_ifs with h2
    · obtain ⟨rfl, ⟨rfl, rfl⟩, _⟩ := h2; exact slot_nil (count_zero.1 h) j
    · rfl
  · rw [if_neg h] at hok ⊢
    obtain ⟨_, _, h3, h4, h5⟩ := dropOne_slot hl hok
    by_cases hc : (o' = true ∧ l' = l) ∧ cat' = cat
    · obtain ⟨⟨rfl, rfl⟩, rfl⟩ := hc
      rw [h3]; simp
    · rw [if_neg (by tauto)]
      apply h4 _ _ _ _ hc
      unfold Derived
      simp only [Bool.true_eq_false, false_and, or_false]
      tauto

theorem off_of_eq {c c' : Cat τ L} {cat : String} {i : Int} (hl : Off c cat i)
    (h : ∀ o l (j : Nat), (j : Int) ≠ i → slot c' o l cat j = slot c o l cat j) : Off c' cat i := by
  intro o l o' l' j hj hd hb
  rw [h _ _ _ hj] at hb ⊢
  exact hl _ _ _ _ _ hj hd hb

theorem dropOne_off {c : Cat τ L} {cat : String} {o l : Bool} {i : Int} (hl : Off c cat i)
    (hok : (dropOne c cat o l i).2 = .ok ()) : Off (dropOne c cat o l i).1 cat i := by
  obtain ⟨_, _, h3, h4, h5⟩ := dropOne_slot hl hok
  refine off_of_eq hl fun o' l' j hj => ?_
  by_cases hc : o' = o ∧ l' = l
  · obtain ⟨rfl, rfl⟩ := hc; rw [h3, if_neg hj]
  · exact h4 _ _ _ _ (by tauto) (Or.inl hj)

theorem clearOneLog_slot {c : Cat τ L} {cat : String} {i : Int} (hl : Off c cat i)
    (hH : get c false true cat = [] → ∀ j, slot c true true cat j = none)
    (hok : (clearOneLog c cat i).2 = .ok ()) (o' l' : Bool) (cat' : String) (j : Nat) :
    slot (clearOneLog c cat i).1 o' l' cat' j =
      if cat' = cat ∧ l' = true ∧ (j : Int) = i then none else slot c o' l' cat' j := by
  unfold clearOneLog at hok ⊢
  by_cases h : count c cat false true = 0
  · rw [if_pos h]
    split_ifs with h2
    · obtain ⟨rfl, rfl, _⟩ := h2
      cases o'
      · exact slot_nil (count_zero.1 h) j
      · exact hH (count_zero.1 h) j
    · rfl
  · rw [if_neg h] at hok ⊢
    obtain ⟨h1, h2⟩ := andThen_ok hok
    rw [h2] at hok ⊢
    obtain ⟨_, _, h3, h4, h5⟩ := dropOne_slot hl h1
    rw [clearOneOrtho_slot (dropOne_off hl h1) hok]
    by_cases hq : cat' = cat ∧ (o' = true ∧ l' = true) ∧ (j : Int) = i
    · rw [if_pos hq, if_pos (by tauto)]
    · rw [if_neg hq]
      by_cases hc : (o' = false ∧ l' = true) ∧ cat' = cat
      · obtain ⟨⟨rfl, rfl⟩, rfl⟩ := hc; rw [h3]; simp
      · have hn : ¬ (cat' = cat ∧ l' = true ∧ (j : Int) = i) := by
          rintro ⟨q1, q2, q3⟩
          cases o'
          · exact hc ⟨⟨rfl, q2⟩, q1⟩
          · exact hq ⟨q1, ⟨rfl, q2⟩, q3⟩
        rw [if_neg hn]
        apply h4 _ _ _ _ hc
        unfold Derived
        cases l'
        · simp
        · simp only [true_and] at hn; tauto

theorem dropOrig_H {c : Cat τ L} {cat : String} {i : Int}
    (hH : get c false true cat = [] → ∀ j, slot c true true cat j = none) :
    get (dropOne c cat false false i).1 false true cat = [] → ∀ j, slot (dropOne c cat false false i).1 true true cat j = none := by
  unfold dropOne
  split_ifs with h
  · simp only
    split_ifs with h2
    · unfold clearAll
      simp only [Bool.false_eq_true, if_false]
      intro h3 j
      unfold slot
      rw [clearAllOrig_get, get_put, get_put, get_put] at *
      simp only [Bool.false_eq_true, false_and, and_false, if_false, reduceCtorEq, true_and, and_true, or_false] at h3 ⊢
      by_cases h4 : get c false true cat = []
      · rw [if_neg (by tauto)]; exact hH h4 j
      · have hA : (get c false false cat).set i.toNat none ≠ [] := by
          intro e
          have := congrArg List.length e
          simp only [List.length_set, List.length_nil] at this
          omega
        rw [if_pos]
        · rfl
        · exact ⟨by simpa using hA, h4⟩
    · intro h3 j
      rw [get_put, if_neg (by simp)] at h3
      rw [slot_put, if_neg (by simp)]
      exact hH h3 j
  · exact hH

theorem clearOneOrtho_get (c : Cat τ L) (cat : String) (l : Bool) (i : Int) (o' l' : Bool) (h : ¬ (o' = true ∧ l' = l)) :
    get (clearOneOrtho c cat l i).1 o' l' cat = get c o' l' cat := by
  unfold clearOneOrtho dropOne
  split_ifs
  · rfl
  · simp only
    split_ifs
    · unfold clearAll
      rw [if_pos rfl, clearAllOrtho_get, if_neg (by tauto), get_put, if_neg (by tauto)]
    · rw [get_put, if_neg (by tauto)]
  · rfl

/-- Erasing one slot of some lists keeps the links when, wherever a slot is erased in a list, it is erased in the lists that
depend on it. -/
theorem linked_erase {S : τ → τ → Prop} {c c' : Cat τ L} (hl : Linked S c) (cat : String) (i : Int) (o l : Bool)
    (h : ∀ o' l' cat' j, slot c' o' l' cat' j =
      if cat' = cat ∧ Derived o l o' l' ∧ (j : Int) = i then none else slot c o' l' cat' j) : Linked S c' := by
  intro cat' j t'
  have key : ∀ o1 l1 o2 l2 t', (Derived o l o1 l1 → Derived o l o2 l2) → slot c' o2 l2 cat' j = some t' →
      (slot c o2 l2 cat' j = some t' → ∃ t, slot c o1 l1 cat' j = some t ∧ S t t') →
      ∃ t, slot c' o1 l1 cat' j = some t ∧ S t t' := by
    intro o1 l1 o2 l2 t' hd e q
    rw [h] at e
    split_ifs at e with hc
    obtain ⟨t, q1, q2⟩ := q e
    refine ⟨t, ?_, q2⟩
    rw [h, if_neg (by tauto), q1]
  refine ⟨fun e => key false false true false t' ?_ e (hl cat' j t').1, fun e => key false false false true t' ?_ e (hl cat' j t').2.1,
    fun e => key false true true true t' ?_ e (hl cat' j t').2.2⟩
  all_goals (unfold Derived; cases o <;> cases l <;> simp)

/-- **C41, clearing one template.** When the call returns, the template at position `i` is removed from the list and from
the lists that depend on it, and nothing else changes. -/
theorem C41_clear_one {S : τ → τ → Prop} (c : Cat τ L) (hl : Linked S c) (cat : String) (o l : Bool) (i : Int)
    (hok : (clearOne c cat o l i).2 = .ok ()) (o' l' : Bool) (cat' : String) (j : Nat) :
    slot (clearOne c cat o l i).1 o' l' cat' j =
      if cat' = cat ∧ Derived o l o' l' ∧ (j : Int) = i then none else slot c o' l' cat' j := by
  have hH : get c false true cat = [] → ∀ j, slot c true true cat j = none := fun h j =>
    hl.none_of_base (o := false) (l := true) (Or.inr ⟨rfl, fun _ => rfl⟩) (slot_nil h j)
  unfold clearOne at hok ⊢
  cases o
  · simp only [Bool.false_eq_true, if_false] at hok ⊢
    cases l
    · simp only [Bool.false_eq_true, if_false] at hok ⊢
      have hd : Derived false false o' l' := Or.inr ⟨rfl, by simp⟩
      unfold clearOneOrig at hok ⊢
      by_cases h : count c cat false false = 0
      · rw [if_pos h]
        split_ifs with h2
        · obtain ⟨rfl, h3, _⟩ := h2; exact hl.none_of_base h3 (slot_nil (count_zero.1 h) j)
        · rfl
      · rw [if_neg h] at hok ⊢
        obtain ⟨h1, h2⟩ := andThen_ok hok
        rw [h2] at hok ⊢
        obtain ⟨h3, h4⟩ := andThen_ok h1
        rw [h4] at h1 hok ⊢
        have hoff1 := dropOne_off (hl.off cat i) h3
        obtain ⟨_, _, d1, d2, d3⟩ := dropOne_slot (hl.off cat i) h3
        have hs1 := clearOneOrtho_slot hoff1 h1
        have hoff2 : Off (clearOneOrtho (dropOne c cat false false i).1 cat false i).1 cat i := by
          refine off_of_eq hoff1 fun o l j hj => ?_
          rw [hs1, if_neg (by tauto)]
        have hH2 : get (clearOneOrtho (dropOne c cat false false i).1 cat false i).1 false true cat = [] →
            ∀ j, slot (clearOneOrtho (dropOne c cat false false i).1 cat false i).1 true true cat j = none := by
          intro q j
          rw [clearOneOrtho_get _ _ _ _ _ _ (by simp)] at q
          rw [hs1, if_neg (by simp)]
          exact dropOrig_H hH q j
        rw [clearOneLog_slot hoff2 hH2 hok, hs1]
        by_cases hall : cat' = cat ∧ (j : Int) = i
        · rw [if_pos (show cat' = cat ∧ Derived false false o' l' ∧ (j : Int) = i from ⟨hall.1, hd, hall.2⟩)]
          obtain ⟨rfl, hji⟩ := hall
          cases l'
          · cases o'
            · simp only [Bool.false_eq_true, false_and, and_false, if_false]; rw [d1, if_pos hji]
            · simp [hji]
          · simp [hji]
        · rw [if_neg (by tauto), if_neg (by tauto), if_neg (by tauto)]
          by_cases hc : (o' = false ∧ l' = false) ∧ cat' = cat
          · obtain ⟨⟨rfl, rfl⟩, rfl⟩ := hc; rw [d1, if_neg (by tauto)]
          · exact d2 _ _ _ _ hc (by tauto)
    · simp only [if_true] at hok ⊢
      rw [clearOneLog_slot (hl.off cat i) hH hok]
      have : Derived false true o' l' ↔ l' = true := by
        unfold Derived; simp only [true_and, forall_const]; tauto
      simp only [this]
  · simp only [if_true] at hok ⊢
    rw [clearOneOrtho_slot (hl.off cat i) hok]
    have : Derived true l o' l' ↔ o' = true ∧ l' = l := by unfold Derived; simp
    simp only [this]

/-! ## Adding and setting -/

/-- **C41, adding.** A template is appended to the list of its category in the current mode, and nothing else changes; a
template without category is refused. -/
theorem C41_add (nm : Names τ) (c : Cat τ L) (t : τ) :
    ((add nm c t).2 = .ok () ↔ nm.category t ≠ "") ∧
    ((add nm c t).2 = .ok () → ∀ o' l' cat',
      get (add nm c t).1 o' l' cat' =
        if (o' = c.ortho ∧ l' = c.log) ∧ cat' = nm.category t then get c o' l' cat' ++ [some t] else get c o' l' cat') ∧
    ((add nm c t).2 ≠ .ok () → (add nm c t) = (c, .throw .INTERNAL_ERROR)) := by
  unfold add
  by_cases h : nm.category t = ""
  · rw [if_pos h]; simp [h]
  · rw [if_neg h]
    refine ⟨by simp [h], fun _ o' l' cat' => ?_, by simp⟩
    rw [get_put]
    by_cases hc : (o' = c.ortho ∧ l' = c.log) ∧ cat' = nm.category t
    · obtain ⟨⟨rfl, rfl⟩, rfl⟩ := hc; simp
    · rw [if_neg hc, if_neg (by tauto)]

theorem clearAllOrtho_mode (c : Cat τ L) (cat : String) (l : Bool) :
    (clearAllOrtho c cat l).ortho = c.ortho ∧ (clearAllOrtho c cat l).log = c.log := by
  unfold clearAllOrtho put; split_ifs <;> exact ⟨rfl, rfl⟩

theorem clearAll_mode (c : Cat τ L) (cat : String) (o l : Bool) :
    (clearAll c cat o l).ortho = c.ortho ∧ (clearAll c cat o l).log = c.log := by
  have hlog : ∀ c : Cat τ L, (clearAllLog c cat).ortho = c.ortho ∧ (clearAllLog c cat).log = c.log := by
    intro c
    unfold clearAllLog
    split_ifs
    · exact ⟨rfl, rfl⟩
    · exact clearAllOrtho_mode _ _ _
  unfold clearAll
  split_ifs
  · exact clearAllOrtho_mode _ _ _
  · exact hlog c
  · unfold clearAllOrig
    split_ifs
    · exact ⟨rfl, rfl⟩
    · exact ⟨(hlog _).1.trans (clearAllOrtho_mode _ _ _).1, (hlog _).2.trans (clearAllOrtho_mode _ _ _).2⟩

theorem dropOne_mode (c : Cat τ L) (cat : String) (o l : Bool) (i : Int) :
    (dropOne c cat o l i).1.ortho = c.ortho ∧ (dropOne c cat o l i).1.log = c.log := by
  unfold dropOne
  split_ifs
  · simp only
    split_ifs
    · exact clearAll_mode _ _ _ _
    · exact ⟨rfl, rfl⟩
  · exact ⟨rfl, rfl⟩

theorem andThen_cases (p : Cat τ L × Res Unit) (f : Cat τ L → Cat τ L × Res Unit) :
    (p.2 = .ok () ∧ andThen p f = f p.1) ∨ (p.2 ≠ .ok () ∧ (andThen p f).1 = p.1 ∧ (andThen p f).2 ≠ .ok ()) := by
  unfold andThen
  split
  · rename_i u hu; cases u; exact Or.inl ⟨hu, rfl⟩
  · rename_i hu; right; rw [hu]; simp
  · rename_i hu; right; rw [hu]; simp

theorem clearOne_mode (c : Cat τ L) (cat : String) (o l : Bool) (i : Int) :
    (clearOne c cat o l i).1.ortho = c.ortho ∧ (clearOne c cat o l i).1.log = c.log := by
  have h1 : ∀ (c : Cat τ L) l, (clearOneOrtho c cat l i).1.ortho = c.ortho ∧ (clearOneOrtho c cat l i).1.log = c.log := by
    intro c l
    unfold clearOneOrtho
    split_ifs
    · exact ⟨rfl, rfl⟩
    · exact dropOne_mode _ _ _ _ _
  have hA : ∀ (p : Cat τ L × Res Unit) (f : Cat τ L → Cat τ L × Res Unit) (c : Cat τ L),
      p.1.ortho = c.ortho ∧ p.1.log = c.log → (∀ c, (f c).1.ortho = c.ortho ∧ (f c).1.log = c.log) →
      (andThen p f).1.ortho = c.ortho ∧ (andThen p f).1.log = c.log := by
    intro p f c hp hf
    rcases andThen_cases p f with ⟨_, h⟩ | ⟨_, h, _⟩
    · rw [h, (hf _).1, (hf _).2]; exact hp
    · rw [h]; exact hp
  have h2 : ∀ c : Cat τ L, (clearOneLog c cat i).1.ortho = c.ortho ∧ (clearOneLog c cat i).1.log = c.log := by
    intro c
    unfold clearOneLog
    split_ifs
    · exact ⟨rfl, rfl⟩
    · exact hA _ _ _ (dropOne_mode _ _ _ _ _) fun c => h1 c _
  unfold clearOne
  split_ifs
  · exact h1 c l
  · exact h2 c
  · unfold clearOneOrig
    split_ifs
    · exact ⟨rfl, rfl⟩
    · exact hA _ _ _ (hA _ _ _ (dropOne_mode _ _ _ _ _) fun c => h1 c _) h2

/-- **C41, setting.** When the call returns, the template stands at position `i` of the list of the current mode, provided
that list keeps another template or `i` is its first position; the lists that depend on it have lost theirs at that
position; nothing else changes. -/
theorem C41_set {S : τ → τ → Prop} (nm : Names τ) (c : Cat τ L) (hl : Linked S c) (t : τ) (i : Int)
    (hok : (setTemplate nm c t i).2 = .ok ())
    (hpos : i = 0 ∨ ∃ k : Nat, (k : Int) ≠ i ∧ slot c c.ortho c.log (nm.category t) k ≠ none)
    (o' l' : Bool) (cat' : String) (j : Nat) :
    slot (setTemplate nm c t i).1 o' l' cat' j =
      if cat' = nm.category t ∧ (j : Int) = i ∧ Derived c.ortho c.log o' l' then
        (if o' = c.ortho ∧ l' = c.log then some t else none)
      else slot c o' l' cat' j := by
  unfold setTemplate at hok ⊢
  obtain ⟨h1, h2⟩ := andThen_ok hok
  rw [h2] at hok ⊢
  set cat := nm.category t with hcat
  have hs := C41_clear_one c hl cat c.ortho c.log i h1
  obtain ⟨m1, m2⟩ := clearOne_mode c cat c.ortho c.log i
  set c1 := (clearOne c cat c.ortho c.log i).1
  rw [m1, m2] at hok ⊢
  have hbr : ∀ (p q r : Prop) [Decidable p] [Decidable q] (a b : Option τ), (p ↔ q) → (if p then a else b) = if q then a else b := by
    intro p q r _ _ a b h; by_cases hp : p
    · rw [if_pos hp, if_pos (h.1 hp)]
    · rw [if_neg hp, if_neg (fun x => hp (h.2 x))]
  by_cases hz : count c1 cat c.ortho c.log = 0
  · rw [if_pos hz] at hok ⊢
    have hget := count_zero.1 hz
    -- the list is empty after the clearing, so i = 0
    have hi : i = 0 := by
      rcases hpos with h | ⟨k, hk, hne⟩
      · exact h
      · exfalso
        have := hs c.ortho c.log cat k
        rw [if_neg (by tauto), slot_nil hget] at this
        exact hne this.symm
    have ha := (C41_add nm c1 t).2.1 hok o' l' cat'
    rw [m1, m2, ← hcat] at ha
    unfold slot at hs ⊢
    rw [ha]
    by_cases hc : (o' = c.ortho ∧ l' = c.log) ∧ cat' = cat
    · rw [if_pos hc]
      obtain ⟨⟨rfl, rfl⟩, rfl⟩ := hc
      rw [hget]
      by_cases hj : (j : Int) = i
      · rw [if_pos ⟨rfl, hj, derived_refl _ _⟩, if_pos ⟨rfl, rfl⟩]
        have : j = 0 := by omega
        subst this; rfl
      · rw [if_neg (by tauto)]
        have h3 := hs c.ortho c.log cat j
        rw [if_neg (by tauto), hget] at h3
        rw [← h3]
        have : j ≠ 0 := by omega
        cases j with
        | zero => exact absurd rfl this
        | succ j => simp
    · rw [if_neg hc, hs]
      by_cases hd : cat' = cat ∧ (j : Int) = i ∧ Derived c.ortho c.log o' l'
      · rw [if_pos (by tauto), if_pos hd, if_neg (by tauto)]
      · rw [if_neg (by tauto), if_neg hd]
  · rw [if_neg hz] at hok ⊢
    by_cases hr : 0 ≤ i ∧ i < (get c1 c.ortho c.log cat).length
    swap
    · rw [if_neg hr] at hok; cases hok
    rw [if_pos hr]
    simp only
    rw [slot_put]
    by_cases hc : o' = c.ortho ∧ l' = c.log ∧ cat' = cat
    · rw [if_pos hc, getD_set _ _ _ _ (by omega)]
      obtain ⟨rfl, rfl, rfl⟩ := hc
      by_cases hj : (j : Int) = i
      · rw [if_pos (by omega), if_pos ⟨rfl, hj, derived_refl _ _⟩, if_pos ⟨rfl, rfl⟩]
      · rw [if_neg (by omega), if_neg (by tauto)]
        have h3 := hs c.ortho c.log cat j
        rw [if_neg (by tauto)] at h3
        exact h3
    · rw [if_neg hc, hs]
      by_cases hd : cat' = cat ∧ (j : Int) = i ∧ Derived c.ortho c.log o' l'
      · rw [if_pos (by tauto), if_pos hd, if_neg (by tauto)]
      · rw [if_neg (by tauto), if_neg hd]

/-! ## Histories -/

/-- Specification: a call is admissible when a derived template is only put at the position of a template it comes from
(`S`), and a template is only set at the first position or in a list with another template. -/
def Admissible (S : τ → τ → Prop) (nm : Names τ) (c : Cat τ L) : Op τ → Prop
  | .add t => ∀ o l, ((o, l) = (false, false) ∧ (c.ortho, c.log) = (true, false)) ∨
      ((o, l) = (false, false) ∧ (c.ortho, c.log) = (false, true)) ∨ ((o, l) = (false, true) ∧ (c.ortho, c.log) = (true, true)) →
      ∃ t0, slot c o l (nm.category t) (get c c.ortho c.log (nm.category t)).length = some t0 ∧ S t0 t
  | .set t i => (i = 0 ∨ ∃ k : Nat, (k : Int) ≠ i ∧ slot c c.ortho c.log (nm.category t) k ≠ none) ∧
      ∀ o l, ((o, l) = (false, false) ∧ (c.ortho, c.log) = (true, false)) ∨
      ((o, l) = (false, false) ∧ (c.ortho, c.log) = (false, true)) ∨ ((o, l) = (false, true) ∧ (c.ortho, c.log) = (true, true)) →
      ∃ t0, slot c o l (nm.category t) i.toNat = some t0 ∧ S t0 t
  | _ => True

/-- A history of admissible calls that return. -/
inductive Hist (S : τ → τ → Prop) (nm : Names τ) : Cat τ L → Cat τ L → Prop
  | nil (c) : Hist S nm c c
  | snoc {c c'} (o : Op τ) : Hist S nm c c' → Admissible S nm c' o → (step nm c' o).2 = .ok () → Hist S nm c (step nm c' o).1

theorem linked_step {S : τ → τ → Prop} (nm : Names τ) (c : Cat τ L) (hl : Linked S c) (o : Op τ) (ha : Admissible S nm c o)
    (hok : (step nm c o).2 = .ok ()) : Linked S (step nm c o).1 := by
  cases o with
  | mode o l => exact hl
  | clearAll cat o l =>
    intro cat' j t'
    have key : ∀ o1 l1 o2 l2 t', (Derived o l o1 l1 → Derived o l o2 l2) →
        slot (clearAll c cat o l) o2 l2 cat' j = some t' →
        (slot c o2 l2 cat' j = some t' → ∃ t, slot c o1 l1 cat' j = some t ∧ S t t') →
        ∃ t, slot (clearAll c cat o l) o1 l1 cat' j = some t ∧ S t t' := by
      intro o1 l1 o2 l2 t' hd e q
      rw [C41_clear_all c hl] at e
      split_ifs at e with hc
      obtain ⟨t, q1, q2⟩ := q e
      exact ⟨t, by rw [C41_clear_all c hl, if_neg (by tauto), q1], q2⟩
    refine ⟨fun e => key false false true false t' ?_ e (hl cat' j t').1,
      fun e => key false false false true t' ?_ e (hl cat' j t').2.1, fun e => key false true true true t' ?_ e (hl cat' j t').2.2⟩
    all_goals (unfold Derived; cases o <;> cases l <;> simp)
  | clearOne cat o l i =>
    exact linked_erase hl cat i o l (C41_clear_one c hl cat o l i hok)
  | add t =>
    have hg := (C41_add nm c t).2.1 hok
    have hs : ∀ o' l' cat' j, slot (add nm c t).1 o' l' cat' j =
        if ((o' = c.ortho ∧ l' = c.log) ∧ cat' = nm.category t) ∧ j = (get c c.ortho c.log (nm.category t)).length then some t
        else slot c o' l' cat' j := by
      intro o' l' cat' j
      unfold slot
      rw [hg]
      by_cases hc : (o' = c.ortho ∧ l' = c.log) ∧ cat' = nm.category t
      · rw [if_pos hc]
        obtain ⟨⟨rfl, rfl⟩, rfl⟩ := hc
        simp only [true_and]
        rw [List.getD_eq_getElem?_getD, List.getElem?_append, List.getD_eq_getElem?_getD]
        rcases Nat.lt_trichotomy j (get c c.ortho c.log (nm.category t)).length with h | h | h
        · rw [if_pos h, if_neg (by omega)]
        · rw [if_neg (by omega), if_pos h, h]; simp
        · rw [if_neg (by omega), if_neg (by omega), List.getElem?_eq_none (by simp; omega), List.getElem?_eq_none (by omega)]
      · rw [if_neg hc, if_neg (by tauto)]
    simp only [Admissible] at ha
    intro cat' j t'
    have key : ∀ o1 l1 o2 l2, (o1, l1) ≠ (o2, l2) →
        ((c.ortho, c.log) = (o2, l2) → ∃ t0, slot c o1 l1 (nm.category t) (get c c.ortho c.log (nm.category t)).length = some t0 ∧ S t0 t) →
        (slot c o2 l2 cat' j = some t' → ∃ t, slot c o1 l1 cat' j = some t ∧ S t t') →
        slot (add nm c t).1 o2 l2 cat' j = some t' →
        ∃ t0, slot (add nm c t).1 o1 l1 cat' j = some t0 ∧ S t0 t' := by
      intro o1 l1 o2 l2 hne hadm hold e
      rw [hs] at e
      split_ifs at e with hc
      · cases e
        obtain ⟨⟨⟨q1, q2⟩, q3⟩, q4⟩ := hc
        obtain ⟨t0, p1, p2⟩ := hadm (by rw [q1, q2])
        refine ⟨t0, ?_, p2⟩
        rw [hs, if_neg]
        · rw [q3, q4]; exact p1
        · rintro ⟨⟨⟨r1, r2⟩, _⟩, _⟩; exact hne (by rw [r1, r2, q1, q2])
      · obtain ⟨t0, p1, p2⟩ := hold e
        by_cases hc2 : ((o1 = c.ortho ∧ l1 = c.log) ∧ cat' = nm.category t) ∧ j = (get c c.ortho c.log (nm.category t)).length
        · exfalso
          obtain ⟨⟨⟨rfl, rfl⟩, rfl⟩, rfl⟩ := hc2
          unfold slot at p1
          rw [List.getD_eq_getElem?_getD, List.getElem?_eq_none (le_refl _)] at p1
          cases p1
        · exact ⟨t0, by rw [hs, if_neg hc2, p1], p2⟩
    refine ⟨key false false true false (by simp) (fun h => ha false false (Or.inl ⟨rfl, h⟩)) (hl cat' j t').1,
      key false false false true (by simp) (fun h => ha false false (Or.inr (Or.inl ⟨rfl, h⟩))) (hl cat' j t').2.1,
      key false true true true (by simp) (fun h => ha false true (Or.inr (Or.inr ⟨rfl, h⟩))) (hl cat' j t').2.2⟩
  | set t i =>
    obtain ⟨hpos, ha⟩ := ha
    have hs := C41_set nm c hl t i hok hpos
    have hi0 : 0 ≤ i := by
      rcases hpos with h | ⟨k, hk, hne⟩
      · omega
      · -- the list is not empty, so the clearing checked i
        by_contra hneg
        unfold step setTemplate at hok
        obtain ⟨h1, _⟩ := andThen_ok hok
        have hg : get c c.ortho c.log (nm.category t) ≠ [] := fun e => hne (slot_nil e k)
        have hdr : ∀ o l, (dropOne c (nm.category t) o l i) = (c, .throw .STD_OUT_OF_RANGE) := by
          intro o l; unfold dropOne; rw [if_neg (by omega)]
        unfold clearOne at h1
        cases ho : c.ortho
        · cases hlg : c.log
          · simp only [ho, hlg, Bool.false_eq_true, if_false] at h1 hg
            unfold clearOneOrig at h1
            rw [if_neg (fun e => hg (count_zero.1 e)), hdr] at h1
            obtain ⟨h3, _⟩ := andThen_ok h1
            obtain ⟨h4, _⟩ := andThen_ok h3
            cases h4
          · simp only [ho, hlg, Bool.false_eq_true, if_false, if_true] at h1 hg
            unfold clearOneLog at h1
            rw [if_neg (fun e => hg (count_zero.1 e)), hdr] at h1
            obtain ⟨h3, _⟩ := andThen_ok h1
            cases h3
        · simp only [ho, if_true] at h1 hg
          unfold clearOneOrtho at h1
          rw [if_neg (fun e => hg (count_zero.1 e)), hdr] at h1
          cases h1
    intro cat' j t'
    have key : ∀ o1 l1 o2 l2, (o1, l1) ≠ (o2, l2) → Derived o1 l1 o2 l2 → (∀ o l, Derived o l o1 l1 → Derived o l o2 l2) →
        (Derived o2 l2 o1 l1 → False) →
        ((c.ortho, c.log) = (o2, l2) → ∃ t0, slot c o1 l1 (nm.category t) i.toNat = some t0 ∧ S t0 t) →
        (slot c o2 l2 cat' j = some t' → ∃ t, slot c o1 l1 cat' j = some t ∧ S t t') →
        slot (setTemplate nm c t i).1 o2 l2 cat' j = some t' →
        ∃ t0, slot (setTemplate nm c t i).1 o1 l1 cat' j = some t0 ∧ S t0 t' := by
      intro o1 l1 o2 l2 hne hd htr hnd hadm hold e
      rw [hs] at e
      by_cases hc : cat' = nm.category t ∧ (j : Int) = i ∧ Derived c.ortho c.log o2 l2
      · rw [if_pos hc] at e
        split_ifs at e with hc2
        cases e
        obtain ⟨rfl, q2, q3⟩ := hc
        obtain ⟨rfl, rfl⟩ := hc2
        obtain ⟨t0, p1, p2⟩ := hadm rfl
        refine ⟨t0, ?_, p2⟩
        rw [hs, if_neg (fun hx => hnd hx.2.2)]
        rw [show j = i.toNat by omega]; exact p1
      · rw [if_neg hc] at e
        obtain ⟨t0, p1, p2⟩ := hold e
        refine ⟨t0, ?_, p2⟩
        rw [hs, if_neg (fun hx => hc ⟨hx.1, hx.2.1, htr _ _ hx.2.2⟩), p1]
    refine ⟨key false false true false (by simp) (by decide) ?_ (by decide) (fun h => ha false false (Or.inl ⟨rfl, h⟩)) (hl cat' j t').1,
      key false false false true (by simp) (by decide) ?_ (by decide) (fun h => ha false false (Or.inr (Or.inl ⟨rfl, h⟩))) (hl cat' j t').2.1,
      key false true true true (by simp) (by decide) ?_ (by decide) (fun h => ha false true (Or.inr (Or.inr ⟨rfl, h⟩))) (hl cat' j t').2.2⟩
    all_goals (intro o l; unfold Derived; cases o <;> cases l <;> simp)

/-- **C41, no stale derived template.** After any history of calls that return, in which each derived template is put at the
position of a template it comes from, every orthogonalised or log-sampled template of the catalogue comes from the template
that now stands at its position: replacing or clearing a template never leaves an old derived one behind. -/
theorem C41_no_stale_partial (S : τ → τ → Prop) (nm : Names τ) (sampling : Bool) (c : Cat τ L) (h : Hist S nm (make sampling) c) :
    Linked S c := by
  generalize h0 : (make sampling : Cat τ L) = c0 at h
  induction h with
  | nil =>
    subst h0
    intro cat j t'
    have : ∀ o l, slot (make sampling : Cat τ L) o l cat j = none := fun o l => rfl
    simp only [this, reduceCtorEq, false_implies, and_self]
  | snoc o _ ha hok ih => exact linked_step nm _ ih o ha hok


/-! ## Every history, exceptions included -/

/-- Specification: a list of a category is empty or holds a template, and its templates have the category. -/
def Sound (nm : Names τ) (cat : String) (v : List (Option τ)) : Prop :=
  (v = [] ∨ ∃ t, some t ∈ v) ∧ ∀ t, some t ∈ v → nm.category t = cat ∧ cat ≠ ""

def AllSound (nm : Names τ) (c : Cat τ L) : Prop := ∀ o l cat, Sound nm cat (get c o l cat)

theorem sound_nil (nm : Names τ) (cat : String) : Sound nm cat [] := ⟨Or.inl rfl, fun t h => absurd h List.not_mem_nil⟩

theorem clearAll_get_or (c : Cat τ L) (cat : String) (o l o' l' : Bool) (cat' : String) :
    get (clearAll c cat o l) o' l' cat' = [] ∨ get (clearAll c cat o l) o' l' cat' = get c o' l' cat' := by
  unfold clearAll
  split_ifs
  · rw [clearAllOrtho_get]; split_ifs <;> simp
  · rw [clearAllLog_get]; split_ifs <;> simp
  · rw [clearAllOrig_get]; split_ifs <;> simp

theorem clearAll_sound {nm : Names τ} {c : Cat τ L} (cat : String) (o l : Bool) (h : AllSound nm c) :
    AllSound nm (clearAll c cat o l) := by
  intro o' l' cat'
  rcases clearAll_get_or c cat o l o' l' cat' with e | e <;> rw [e]
  · exact sound_nil nm cat'
  · exact h o' l' cat'

theorem mem_set_some {v : List (Option τ)} {i : Nat} {t : τ} (h : some t ∈ v.set i none) : some t ∈ v := by
  rcases List.mem_or_eq_of_mem_set h with h | h
  · exact h
  · cases h

theorem clearAll_self (c : Cat τ L) (cat : String) (o l : Bool) : get (clearAll c cat o l) o l cat = [] := by
  unfold clearAll
  cases o
  · cases l
    · simp only [Bool.false_eq_true, if_false]
      rw [clearAllOrig_get]
      by_cases h : get c false false cat = [] <;> simp [h]
    · simp only [Bool.false_eq_true, if_false, if_true]
      rw [clearAllLog_get]
      by_cases h : get c false true cat = [] <;> simp [h]
  · simp only [if_true]
    rw [clearAllOrtho_get, if_pos ⟨rfl, rfl, rfl⟩]

theorem dropOne_sound {nm : Names τ} {c : Cat τ L} (cat : String) (o l : Bool) (i : Int) (h : AllSound nm c) :
    AllSound nm (dropOne c cat o l i).1 := by
  unfold dropOne
  split_ifs with hi
  swap
  · exact h
  simp only
  set c1 := put c o l cat ((get c o l cat).set i.toNat none) with hc1
  have hold : ∀ o' l' cat', ¬ (o' = o ∧ l' = l ∧ cat' = cat) → get c1 o' l' cat' = get c o' l' cat' := by
    intro o' l' cat' hn; rw [hc1, get_put, if_neg hn]
  have hnew : get c1 o l cat = (get c o l cat).set i.toNat none := by rw [hc1, get_put, if_pos ⟨rfl, rfl, rfl⟩]
  split_ifs with hz
  · intro o' l' cat'
    by_cases hn : o' = o ∧ l' = l ∧ cat' = cat
    · obtain ⟨rfl, rfl, rfl⟩ := hn; rw [clearAll_self]; exact sound_nil _ _
    · rcases clearAll_get_or c1 cat o l o' l' cat' with e | e <;> rw [e]
      · exact sound_nil nm cat'
      · rw [hold _ _ _ hn]; exact h o' l' cat'
  · intro o' l' cat'
    by_cases hn : o' = o ∧ l' = l ∧ cat' = cat
    · obtain ⟨rfl, rfl, rfl⟩ := hn
      refine ⟨Or.inr ?_, ?_⟩
      · rw [nonNull_zero] at hz
        push Not at hz
        obtain ⟨j, hj⟩ := hz
        obtain ⟨t, ht⟩ := Option.ne_none_iff_exists'.1 hj
        unfold slot at ht
        rw [List.getD_eq_getElem?_getD] at ht
        refine ⟨t, ?_⟩
        cases e : (get c1 o' l' cat')[j]? with
        | none => rw [e] at ht; cases ht
        | some x =>
          rw [e] at ht
          simp only [Option.getD_some] at ht
          subst ht
          exact List.mem_of_getElem? e
      · intro t ht
        rw [hnew] at ht
        exact (h o' l' cat').2 t (mem_set_some ht)
    · rw [hold _ _ _ hn]; exact h o' l' cat'

theorem andThen_inv {P : Cat τ L → Prop} {p : Cat τ L × Res Unit} {f : Cat τ L → Cat τ L × Res Unit} (hp : P p.1)
    (hf : ∀ c, P c → P (f c).1) : P (andThen p f).1 := by
  rcases andThen_cases p f with ⟨_, h⟩ | ⟨_, h, _⟩
  · rw [h]; exact hf _ hp
  · rw [h]; exact hp

theorem clearOne_sound {nm : Names τ} {c : Cat τ L} (cat : String) (o l : Bool) (i : Int) (h : AllSound nm c) :
    AllSound nm (clearOne c cat o l i).1 := by
  have h1 : ∀ (c : Cat τ L) l, AllSound nm c → AllSound nm (clearOneOrtho c cat l i).1 := by
    intro c l h
    unfold clearOneOrtho
    split_ifs
    · exact h
    · exact dropOne_sound _ _ _ _ h
  have h2 : ∀ c : Cat τ L, AllSound nm c → AllSound nm (clearOneLog c cat i).1 := by
    intro c h
    unfold clearOneLog
    split_ifs
    · exact h
    · exact andThen_inv (dropOne_sound _ _ _ _ h) fun c hc => h1 c _ hc
  unfold clearOne
  split_ifs
  · exact h1 c l h
  · exact h2 c h
  · unfold clearOneOrig
    split_ifs
    · exact h
    · exact andThen_inv (andThen_inv (dropOne_sound _ _ _ _ h) fun c hc => h1 c _ hc) h2

theorem add_sound {nm : Names τ} {c : Cat τ L} (t : τ) (h : AllSound nm c) : AllSound nm (add nm c t).1 := by
  unfold add
  split_ifs with hc
  · exact h
  · intro o' l' cat'
    simp only
    rw [get_put]
    split_ifs with hn
    · obtain ⟨rfl, rfl, rfl⟩ := hn
      refine ⟨Or.inr ⟨t, by simp⟩, ?_⟩
      intro t' ht'
      rcases List.mem_append.1 ht' with q | q
      · exact (h _ _ _).2 t' q
      · simp only [List.mem_singleton, Option.some.injEq] at q
        subst q; exact ⟨rfl, hc⟩
    · exact h o' l' cat'

theorem set_sound {nm : Names τ} {c : Cat τ L} (t : τ) (i : Int) (h : AllSound nm c) : AllSound nm (setTemplate nm c t i).1 := by
  unfold setTemplate
  refine andThen_inv (clearOne_sound _ _ _ _ h) ?_
  intro c hs
  split_ifs with h1 h2
  · exact add_sound t hs
  · intro o' l' cat'
    simp only
    rw [get_put]
    split_ifs with hn
    · obtain ⟨rfl, rfl, rfl⟩ := hn
      have hlt : i.toNat < (get c c.ortho c.log (nm.category t)).length := by omega
      refine ⟨Or.inr ⟨t, List.mem_set hlt _⟩, ?_⟩
      have hne : nm.category t ≠ "" := by
        rcases (hs c.ortho c.log (nm.category t)).1 with e | ⟨t', ht'⟩
        · exact absurd (count_zero.2 e) h1
        · exact ((hs _ _ _).2 t' ht').2
      intro t' ht'
      rcases List.mem_or_eq_of_mem_set ht' with q | q
      · exact (hs _ _ _).2 t' q
      · cases q; exact ⟨rfl, hne⟩
    · exact hs o' l' cat'
  · exact hs

/-- **C41, every history.** After any sequence of calls on a new catalogue, whether or not they throw, each list of each
category is empty or holds at least one template (a list of null templates is never left), the templates of a list have
its category, and no template without category is stored. -/
theorem C41_sound (nm : Names τ) (sampling : Bool) (ops : List (Op τ)) (o l : Bool) (cat : String) :
    Sound nm cat (get (run nm (make sampling : Cat τ L) ops) o l cat) := by
  have key : ∀ (ops : List (Op τ)) (c : Cat τ L), AllSound nm c → AllSound nm (run nm c ops) := by
    intro ops
    induction ops with
    | nil => exact fun c h => h
    | cons op ops ih =>
      intro c h
      refine ih _ ?_
      cases op with
      | mode o l => exact h
      | add t => exact add_sound t h
      | set t i => exact set_sound t i h
      | clearAll cat o l => exact clearAll_sound cat o l h
      | clearOne cat o l i => exact clearOne_sound cat o l i h
  exact key ops (make sampling) (fun o l cat => sound_nil nm cat) o l cat

/-! ## Reading -/

/-- **C41, counting.** -/
theorem C41_count (c : Cat τ L) (cat : String) (o l : Bool) :
    count c cat o l = (get c o l cat).length ∧
    nonNull c cat o l = ((get c o l cat).filterMap id).length := by
  refine ⟨count_eq c cat o l, ?_⟩
  unfold nonNull
  have hf : ∀ v : List (Option τ), (v.filter (·.isSome)).length = (v.filterMap id).length := by
    intro v
    induction v with
    | nil => rfl
    | cons x xs ih => cases x <;> simp [ih]
  split_ifs with h
  · rw [count_zero.1 h]; rfl
  · exact hf _

/-- **C41, reading by position.** A template (or null) is returned exactly for the positions of the list, and an exception
of the standard library is thrown otherwise. -/
theorem C41_get (c : Cat τ L) (cat : String) (i : Int) (o l : Bool) :
    getTemplate c cat i o l =
      if 0 ≤ i ∧ i < count c cat o l then .ok (slot c o l cat i.toNat) else .throw .STD_OUT_OF_RANGE := by
  rw [count_eq]
  unfold getTemplate slot get
  cases h : c.lists o l cat with
  | none => simp only [Option.getD_none, List.length_nil]; rw [if_neg (by omega)]
  | some v =>
    simp only [Option.getD_some]
    by_cases h0 : 0 ≤ i
    · rw [if_pos h0]
      by_cases h1 : i.toNat < v.length
      · rw [if_pos ⟨h0, by omega⟩, List.getElem?_eq_getElem h1, List.getD_eq_getElem?_getD, List.getElem?_eq_getElem h1]
        rfl
      · rw [if_neg (by omega), List.getElem?_eq_none (by omega)]
    · rw [if_neg h0, if_neg (by omega)]

theorem findName_none {nm : Names τ} {name : String} {v : List (Option τ)} (hv : none ∉ v) :
    findName nm name v = .ok ((v.filterMap id).find? (fun t => decide (nm.name t = name))) := by
  induction v with
  | nil => rfl
  | cons x xs ih =>
    cases x with
    | none => exact absurd List.mem_cons_self hv
    | some t =>
      unfold findName
      by_cases h : nm.name t = name
      · rw [if_pos h]; simp [h]
      · rw [if_neg h, ih (fun q => hv (List.mem_cons_of_mem _ q))]; simp [h]

/-- **C41, reading by name.** In lists without null templates, the search returns the first template of that name, in the
order of the categories given and then of the lists, and throws when there is none. -/
theorem C41_by_name (nm : Names τ) (c : Cat τ L) (name : String) (o l : Bool) (cats : List String)
    (hn : ∀ cat ∈ cats, none ∉ get c o l cat) :
    getByName nm c name o l cats =
      match ((templateList c o l cats).filterMap id).find? (fun t => decide (nm.name t = name)) with
      | some t => .ok t
      | none => .throw .INTERNAL_ERROR := by
  induction cats with
  | nil => rfl
  | cons cat cats ih =>
    unfold getByName
    rw [findName_none (hn cat List.mem_cons_self), Res.bind_ok]
    unfold templateList
    rw [List.flatMap_cons, List.filterMap_append, List.find?_append]
    cases e : ((get c o l cat).filterMap id).find? (fun t => decide (nm.name t = name)) with
    | some t => rfl
    | none =>
      simp only [Option.none_or]
      exact ih fun cat' h => hn cat' (List.mem_cons_of_mem _ h)

/-- **C41, reading by name (soundness).** A returned template has the name and stands in a list of the given categories. -/
theorem C41_by_name_sound (nm : Names τ) (c : Cat τ L) (name : String) (o l : Bool) (cats : List String) (t : τ)
    (h : getByName nm c name o l cats = .ok t) :
    nm.name t = name ∧ some t ∈ templateList c o l cats := by
  have hf : ∀ (v : List (Option τ)) t, findName nm name v = .ok (some t) → nm.name t = name ∧ some t ∈ v := by
    intro v
    induction v with
    | nil => intro t h; cases h
    | cons x xs ih =>
      intro t h
      cases x with
      | none => cases h
      | some y =>
        unfold findName at h
        split_ifs at h with hy
        · cases h; exact ⟨hy, List.mem_cons_self⟩
        · exact ⟨(ih t h).1, List.mem_cons_of_mem _ (ih t h).2⟩
  induction cats with
  | nil => cases h
  | cons cat cats ih =>
    unfold getByName at h
    obtain ⟨r, h1, h2⟩ := Res.bind_eq_ok.1 h
    unfold templateList
    rw [List.flatMap_cons]
    cases r with
    | some t' =>
      cases h2
      exact ⟨(hf _ _ h1).1, List.mem_append_left _ (hf _ _ h1).2⟩
    | none => exact ⟨(ih h2).1, List.mem_append_right _ (ih h2).2⟩

/-! ## Concrete catalogues -/

/-- Templates of the examples: `(name, category, mark)`. -/
abbrev T := String × String × Nat

def nmT : Names T := ⟨fun t => t.1, fun t => t.2.1⟩

/-- Two galaxy templates, their log-sampled and orthogonalised versions. -/
def exOps : List (Op T) :=
  [.add ("a", "galaxy", 0), .add ("b", "galaxy", 1), .mode false true, .add ("a", "galaxy", 10), .add ("b", "galaxy", 11),
    .mode true false, .add ("a", "galaxy", 20), .add ("b", "galaxy", 21), .mode true true, .add ("a", "galaxy", 30),
    .add ("b", "galaxy", 31), .mode false false]

def exCat : Cat T Nat := run nmT (make false) exOps

-- the history of the example is admissible, each derived template carrying the mark of its source
example : Hist (fun t t' : T => t'.1 = t.1) nmT (make false : Cat T Nat) exCat := by
  have h : ∀ (ops : List (Op T)) (c0 c : Cat T Nat), Hist (fun t t' : T => t'.1 = t.1) nmT c0 c →
      (∀ k, ∀ o, ops[k]? = some o → Admissible (fun t t' : T => t'.1 = t.1) nmT (run nmT c (ops.take k)) o ∧
        (step nmT (run nmT c (ops.take k)) o).2 = .ok ()) → Hist (fun t t' : T => t'.1 = t.1) nmT c0 (run nmT c ops) := by
    intro ops
    induction ops with
    | nil => intro c0 c h _; exact h
    | cons o ops ih =>
      intro c0 c h hs
      refine ih c0 (step nmT c o).1 (Hist.snoc o h (hs 0 o rfl).1 (hs 0 o rfl).2) ?_
      intro k o' ho'
      exact hs (k + 1) o' ho'
  refine h exOps _ _ (Hist.nil _) ?_
  intro k o hk
  rcases k with _ | _ | _ | _ | _ | _ | _ | _ | _ | _ | _ | _ | k
  all_goals first
    | (cases hk; refine ⟨?_, by decide +kernel⟩; first | trivial | skip)
    | exact absurd hk (by simp [exOps])
  all_goals
    intro o l h
    rcases h with ⟨h1, h2⟩ | ⟨h1, h2⟩ | ⟨h1, h2⟩ <;> cases h1 <;> first
      | exact absurd h2 (by decide +kernel)
      | exact ⟨_, rfl, rfl⟩

-- replacing the first original template removes its three derived ones, and only those
example : (setTemplate nmT exCat ("a", "galaxy", 5) 0).2 = .ok () ∧
    get (setTemplate nmT exCat ("a", "galaxy", 5) 0).1 false false "galaxy" = [some ("a", "galaxy", 5), some ("b", "galaxy", 1)] ∧
    get (setTemplate nmT exCat ("a", "galaxy", 5) 0).1 true true "galaxy" = [none, some ("b", "galaxy", 31)] := by
  decide +kernel

-- the search by name finds the template of the list asked for
example : getByName nmT exCat "b" true false ["star", "galaxy"] = .ok ("b", "galaxy", 21) := by decide +kernel

/-- The restriction of `C41_set` is needed: replacing the only template that is left at position 1 moves it to position 0,
where it stands against another original template. -/
theorem C41_set_moves :
    let c := (clearOne exCat "galaxy" true true 0).1
    let c' := (setTemplate nmT { c with ortho := true, log := true } ("b", "galaxy", 41) 1)
    c'.2 = .ok () ∧ get c'.1 true true "galaxy" = [some ("b", "galaxy", 41)] ∧
    get c'.1 false true "galaxy" = [some ("a", "galaxy", 10), some ("b", "galaxy", 11)] := by
  decide +kernel

/-- The restriction of `C41_by_name` is needed: a null template before the one searched is dereferenced. -/
theorem C41_by_name_null : getByName nmT (clearOne exCat "galaxy" true true 0).1 "b" true true ["galaxy"] = .ub := by
  decide +kernel

/-- The restriction to histories without exception is needed: when the orthogonalised list is shorter than the original
one, clearing an original template throws midway and leaves the log-sampled templates derived from it. -/
theorem C41_throw_stale :
    let c : Cat T Nat := run nmT (make false) [.add ("a", "galaxy", 0), .add ("b", "galaxy", 1), .mode false true,
      .add ("a", "galaxy", 10), .add ("b", "galaxy", 11), .mode true false, .add ("a", "galaxy", 20), .mode false false]
    (clearOne c "galaxy" false false 1).2 = .throw .STD_OUT_OF_RANGE ∧
    slot (clearOne c "galaxy" false false 1).1 false false "galaxy" 1 = none ∧
    slot (clearOne c "galaxy" false false 1).1 false true "galaxy" 1 = some ("b", "galaxy", 11) := by
  decide +kernel

end
end TplCat
end Amazed
