import Verif.Model.EltSupport
import Mathlib.Data.Int.Interval
import Mathlib.Tactic.Linarith
import Mathlib.Tactic.Push

set_option linter.unusedVariables false
set_option linter.unusedSectionVars false

/-! # C71: supports of a line element -/

namespace Amazed
namespace EltSup

/-! ## The loops on the activity matrix -/

theorem mark_iff {m : Nat → Nat → Bool} {i j a b : Nat} : mark m i j a b = true ↔ m a b = true ∨ (a = i ∧ b = j) := by
  unfold mark; split <;> simp_all

theorem link_iff (n : Nat) (out : Nat → Bool) (p q : Nat) (act : Nat → Nat → Bool) (hpq : p ≠ q) (h : act p q = true) (a b : Nat) :
    link n out p q act a b = true ↔ act a b = true ∨ (a < n ∧ b = q ∧ act p a = true ∧ out a = false) ∨
      (b < n ∧ a = q ∧ act p b = true ∧ out b = false) := by
  have key : ∀ k, ∀ a b, (List.range k).foldl (fun a m => if out m then a else if a p m then mark (mark a m q) q m else a) act a b = true ↔
      act a b = true ∨ (a < k ∧ b = q ∧ act p a = true ∧ out a = false) ∨ (b < k ∧ a = q ∧ act p b = true ∧ out b = false) := by
    intro k
    induction k with
    | zero => intro a b; simp
    | succ k ih =>
      intro a b
      rw [List.range_succ, List.foldl_append]
      simp only [List.foldl_cons, List.foldl_nil]
      generalize (List.range k).foldl (fun a m => if out m then a else if a p m then mark (mark a m q) q m else a) act = A at ih
      have hrow : A p k = true ↔ act p k = true := by
        rw [ih]
        constructor
        · rintro (h1 | ⟨_, rfl, _, _⟩ | ⟨_, h1, _, _⟩)
          · exact h1
          · exact h
          · exact absurd h1 hpq
        · exact Or.inl
      by_cases ho : out k = true
      · simp only [ho, if_true]
        rw [ih]
        constructor
        · rintro (h1 | ⟨h1, h2⟩ | ⟨h1, h2⟩)
          · exact Or.inl h1
          · exact Or.inr (Or.inl ⟨by omega, h2⟩)
          · exact Or.inr (Or.inr ⟨by omega, h2⟩)
        · rintro (h1 | ⟨h1, h2, h3, h4⟩ | ⟨h1, h2, h3, h4⟩)
          · exact Or.inl h1
          · refine Or.inr (Or.inl ⟨?_, h2, h3, h4⟩)
            rcases Nat.lt_succ_iff_lt_or_eq.1 h1 with h | rfl
            · exact h
            · rw [ho] at h4; cases h4
          · refine Or.inr (Or.inr ⟨?_, h2, h3, h4⟩)
            rcases Nat.lt_succ_iff_lt_or_eq.1 h1 with h | rfl
            · exact h
            · rw [ho] at h4; cases h4
      · have hof : out k = false := by simpa using ho
        simp only [hof, Bool.false_eq_true, if_false]
        by_cases hr : act p k = true
        · rw [if_pos (hrow.2 hr), mark_iff, mark_iff, ih]
          constructor
          · rintro (((h1 | ⟨h1, h2⟩ | ⟨h1, h2⟩) | ⟨rfl, rfl⟩) | ⟨rfl, rfl⟩)
            · exact Or.inl h1
            · exact Or.inr (Or.inl ⟨by omega, h2⟩)
            · exact Or.inr (Or.inr ⟨by omega, h2⟩)
            · exact Or.inr (Or.inl ⟨by omega, rfl, hr, hof⟩)
            · exact Or.inr (Or.inr ⟨by omega, rfl, hr, hof⟩)
          · rintro (h1 | ⟨h1, h2, h3, h4⟩ | ⟨h1, h2, h3, h4⟩)
            · exact Or.inl (Or.inl (Or.inl h1))
            · rcases Nat.lt_succ_iff_lt_or_eq.1 h1 with h | rfl
              · exact Or.inl (Or.inl (Or.inr (Or.inl ⟨h, h2, h3, h4⟩)))
              · exact Or.inl (Or.inr ⟨rfl, h2⟩)
            · rcases Nat.lt_succ_iff_lt_or_eq.1 h1 with h | rfl
              · exact Or.inl (Or.inl (Or.inr (Or.inr ⟨h, h2, h3, h4⟩)))
              · exact Or.inr ⟨h2, rfl⟩
        · rw [if_neg (fun h => hr (hrow.1 h)), ih]
          constructor
          · rintro (h1 | ⟨h1, h2⟩ | ⟨h1, h2⟩)
            · exact Or.inl h1
            · exact Or.inr (Or.inl ⟨by omega, h2⟩)
            · exact Or.inr (Or.inr ⟨by omega, h2⟩)
          · rintro (h1 | ⟨h1, h2, h3, h4⟩ | ⟨h1, h2, h3, h4⟩)
            · exact Or.inl h1
            · refine Or.inr (Or.inl ⟨?_, h2, h3, h4⟩)
              rcases Nat.lt_succ_iff_lt_or_eq.1 h1 with h | rfl
              · exact h
              · exact absurd h3 hr
            · refine Or.inr (Or.inr ⟨?_, h2, h3, h4⟩)
              rcases Nat.lt_succ_iff_lt_or_eq.1 h1 with h | rfl
              · exact h
              · exact absurd h3 hr
  exact key n a b

/-! ## Groups of lines -/

/-- A line of the element inside of the range. -/
def In (n : Nat) (out : Nat → Bool) (k : Nat) : Prop := k < n ∧ out k = false

/-- Sample `p` is in the support of line `k`. -/
def Covers (s e : Nat → ℤ) (k : Nat) (p : ℤ) : Prop := s k ≤ p ∧ p ≤ e k

/-- Specification of the merged supports: the lines in range are grouped (`g k` is the line holding the support of the group of
`k`); the support of a group is the union of the theoretical supports of its lines, the other lines of the group have an empty
support, and the lines active on the support of a group are exactly its lines. -/
structure Grouped (n : Nat) (out : Nat → Bool) (s0 e0 : Nat → ℤ) (t : Sup) (g : Nat → Nat) : Prop where
  rep : ∀ k, In n out k → In n out (g k) ∧ g (g k) = g k
  union : ∀ k, In n out k → ∀ p, Covers t.s t.e (g k) p ↔ ∃ l, In n out l ∧ g l = g k ∧ Covers s0 e0 l p
  empty : ∀ k, In n out k → g k ≠ k → t.e k < t.s k
  holder : ∀ k, In n out k → t.s (g k) ≤ t.e (g k)
  active : ∀ k l, In n out k → In n out l → (t.act (g k) l = true ↔ g l = g k)
  activeR : ∀ k l, In n out k → In n out l → (t.act l (g k) = true ↔ g l = g k)
  same : ∀ k l, In n out k → In n out l → t.act k l = true → g k = g l

theorem overlaps_iff {x1 x2 y1 y2 : ℤ} : overlaps x1 x2 y1 y2 = true ↔ max x1 y1 < min x2 y2 := by
  unfold overlaps; rw [decide_eq_true_iff]; omega

theorem Grouped.merge {n : Nat} {out : Nat → Bool} {s0 e0 : Nat → ℤ} {t : Sup} {g : Nat → Nat} (h : Grouped n out s0 e0 t g)
    {i j : Nat} (hi : In n out i) (hj : In n out j) (hij : i ≠ j) (ai : t.s i ≤ t.e i) (aj : t.s j ≤ t.e j)
    (ho : overlaps (t.s i) (t.e i) (t.s j) (t.e j) = true) :
    Grouped n out s0 e0 (EltSup.merge n out i j t) (fun k => if g k = j then i else g k) := by
  have gi : g i = i := by
    by_contra hne; have := h.empty i hi hne; omega
  have gj : g j = j := by
    by_contra hne; have := h.empty j hj hne; omega
  rw [overlaps_iff] at ho
  -- the new supports
  have hs : ∀ k, (EltSup.merge n out i j t).s k = if k = j then max (t.e i) (t.e j) else if k = i then min (t.s i) (t.s j) else t.s k := by
    intro k; simp only [EltSup.merge, upd]
  have he : ∀ k, (EltSup.merge n out i j t).e k = if k = j then max (t.e i) (t.e j) - 1 else if k = i then max (t.e i) (t.e j) else t.e k := by
    intro k; simp only [EltSup.merge, upd]
  have a1 : ∀ a b, mark (mark t.act i j) j i a b = true ↔ t.act a b = true ∨ (a = i ∧ b = j) ∨ (a = j ∧ b = i) := by
    intro a b; rw [mark_iff, mark_iff]; tauto
  -- rows of the representatives
  have ri : ∀ l, In n out l → (t.act i l = true ↔ g l = i) := by
    intro l hl; have := h.active i l hi hl; rwa [gi] at this
  have rj : ∀ l, In n out l → (t.act j l = true ↔ g l = j) := by
    intro l hl; have := h.active j l hj hl; rwa [gj] at this
  have ci : ∀ l, In n out l → (t.act l i = true ↔ g l = i) := by
    intro l hl; have := h.activeR i l hi hl; rwa [gi] at this
  have cj : ∀ l, In n out l → (t.act l j = true ↔ g l = j) := by
    intro l hl; have := h.activeR j l hj hl; rwa [gj] at this
  -- the matrix after the first and after the second loop
  have a2 : ∀ a b, In n out a → In n out b → (link n out i j (mark (mark t.act i j) j i) a b = true ↔
      t.act a b = true ∨ (b = j ∧ (g a = i ∨ a = j)) ∨ (a = j ∧ (g b = i ∨ b = j))) := by
    intro a b ha hb
    rw [link_iff n out i j _ hij ((a1 i j).2 (Or.inr (Or.inl ⟨rfl, rfl⟩)))]
    have e1 : mark (mark t.act i j) j i i a = true ↔ g a = i ∨ a = j := by
      rw [a1, ri a ha]
      constructor
      · rintro (h1 | ⟨_, h1⟩ | ⟨h1, _⟩)
        · exact Or.inl h1
        · exact Or.inr h1
        · exact absurd h1 hij
      · rintro (h1 | h1)
        · exact Or.inl h1
        · exact Or.inr (Or.inl ⟨rfl, h1⟩)
    have e2 : mark (mark t.act i j) j i i b = true ↔ g b = i ∨ b = j := by
      rw [a1, ri b hb]
      constructor
      · rintro (h1 | ⟨_, h1⟩ | ⟨h1, _⟩)
        · exact Or.inl h1
        · exact Or.inr h1
        · exact absurd h1 hij
      · rintro (h1 | h1)
        · exact Or.inl h1
        · exact Or.inr (Or.inl ⟨rfl, h1⟩)
    rw [e1, e2, a1]
    constructor
    · rintro ((h1 | ⟨rfl, rfl⟩ | ⟨rfl, rfl⟩) | ⟨_, h1, h2, _⟩ | ⟨_, h1, h2, _⟩)
      · exact Or.inl h1
      · exact Or.inr (Or.inl ⟨rfl, Or.inl gi⟩)
      · exact Or.inr (Or.inr ⟨rfl, Or.inl gi⟩)
      · exact Or.inr (Or.inl ⟨h1, h2⟩)
      · exact Or.inr (Or.inr ⟨h1, h2⟩)
    · rintro (h1 | ⟨h1, h2⟩ | ⟨h1, h2⟩)
      · exact Or.inl (Or.inl h1)
      · exact Or.inr (Or.inl ⟨ha.1, h1, h2, ha.2⟩)
      · exact Or.inr (Or.inr ⟨hb.1, h1, h2, hb.2⟩)
  have a3 : ∀ a b, In n out a → In n out b → ((EltSup.merge n out i j t).act a b = true ↔
      t.act a b = true ∨ (b = j ∧ (g a = i ∨ a = j)) ∨ (a = j ∧ (g b = i ∨ b = j)) ∨
      (b = i ∧ (g a = i ∨ g a = j)) ∨ (a = i ∧ (g b = i ∨ g b = j))) := by
    intro a b ha hb
    change link n out j i (link n out i j (mark (mark t.act i j) j i)) a b = true ↔ _
    rw [link_iff n out j i _ (Ne.symm hij) ((a2 j i hj hi).2 (Or.inr (Or.inr ⟨rfl, Or.inl gi⟩)))]
    have e1 : ∀ c, In n out c → (link n out i j (mark (mark t.act i j) j i) j c = true ↔ g c = i ∨ g c = j) := by
      intro c hc
      rw [a2 j c hj hc, rj c hc]
      constructor
      · rintro (h1 | ⟨rfl, _⟩ | ⟨_, h1 | rfl⟩)
        · exact Or.inr h1
        · exact Or.inr gj
        · exact Or.inl h1
        · exact Or.inr gj
      · rintro (h1 | h1)
        · exact Or.inr (Or.inr ⟨rfl, Or.inl h1⟩)
        · exact Or.inl h1
    rw [e1 a ha, e1 b hb, a2 a b ha hb]
    constructor
    · rintro ((h1 | h1 | h1) | ⟨_, h1, h2, _⟩ | ⟨_, h1, h2, _⟩)
      · exact Or.inl h1
      · exact Or.inr (Or.inl h1)
      · exact Or.inr (Or.inr (Or.inl h1))
      · exact Or.inr (Or.inr (Or.inr (Or.inl ⟨h1, h2⟩)))
      · exact Or.inr (Or.inr (Or.inr (Or.inr ⟨h1, h2⟩)))
    · rintro (h1 | h1 | h1 | ⟨h1, h2⟩ | ⟨h1, h2⟩)
      · exact Or.inl (Or.inl h1)
      · exact Or.inl (Or.inr (Or.inl h1))
      · exact Or.inl (Or.inr (Or.inr h1))
      · exact Or.inr (Or.inl ⟨ha.1, h1, h2, ha.2⟩)
      · exact Or.inr (Or.inr ⟨hb.1, h1, h2, hb.2⟩)
  -- the representatives
  have hg' : ∀ k, In n out k → (if g k = j then i else g k) ≠ j ∧ In n out (if g k = j then i else g k) ∧
      g (if g k = j then i else g k) = (if g k = j then i else g k) := by
    intro k hk
    obtain ⟨h1, h2⟩ := h.rep k hk
    split
    · exact ⟨hij, hi, gi⟩
    · rename_i hne; exact ⟨hne, h1, h2⟩
  have hgeq : ∀ k l, (if g l = j then i else g l) = (if g k = j then i else g k) ↔
      g l = g k ∨ ((g l = i ∨ g l = j) ∧ (g k = i ∨ g k = j)) := by
    intro k l
    split_ifs <;> omega
  refine ⟨?_, ?_, ?_, ?_, ?_, ?_, ?_⟩
  · intro k hk
    obtain ⟨h1, h2, h3⟩ := hg' k hk
    refine ⟨h2, ?_⟩
    rw [if_neg (by rw [h3]; exact h1), h3]
  · intro k hk p
    unfold Covers
    rw [hs, he]
    obtain ⟨h1, h2, h3⟩ := hg' k hk
    rw [if_neg h1, if_neg h1]
    by_cases c : (if g k = j then i else g k) = i
    · rw [if_pos c, if_pos c]
      have ui := h.union i hi p
      have uj := h.union j hj p
      rw [gi] at ui; rw [gj] at uj
      unfold Covers at ui uj
      have : (min (t.s i) (t.s j) ≤ p ∧ p ≤ max (t.e i) (t.e j)) ↔ (t.s i ≤ p ∧ p ≤ t.e i) ∨ (t.s j ≤ p ∧ p ≤ t.e j) := by
        omega
      rw [this, ui, uj]
      constructor
      · rintro (⟨l, hl, hgl, hc⟩ | ⟨l, hl, hgl, hc⟩)
        · refine ⟨l, hl, ?_, hc⟩
          rw [c, if_neg (by rw [hgl]; exact hij), hgl]
        · refine ⟨l, hl, ?_, hc⟩
          rw [c, if_pos hgl]
      · rintro ⟨l, hl, hgl, hc⟩
        rw [c] at hgl
        by_cases d : g l = j
        · exact Or.inr ⟨l, hl, d, hc⟩
        · rw [if_neg d] at hgl; exact Or.inl ⟨l, hl, hgl, hc⟩
    · rw [if_neg c, if_neg c]
      have hkj : g k ≠ j := fun hh => c (by rw [if_pos hh])
      rw [if_neg hkj] at c ⊢
      have u := h.union k hk p
      unfold Covers at u
      rw [u]
      constructor
      · rintro ⟨l, hl, hgl, hc⟩
        exact ⟨l, hl, by rw [hgl, if_neg hkj], hc⟩
      · rintro ⟨l, hl, hgl, hc⟩
        refine ⟨l, hl, ?_, hc⟩
        by_cases d : g l = j
        · rw [if_pos d] at hgl; exact absurd hgl.symm c
        · rw [if_neg d] at hgl; exact hgl
  · intro k hk hne
    rw [hs, he]
    by_cases c : k = j
    · rw [if_pos c, if_pos c]; omega
    · rw [if_neg c, if_neg c]
      have hki : k ≠ i := by
        rintro rfl
        apply hne; rw [gi, if_neg hij]
      rw [if_neg hki, if_neg hki]
      by_cases d : g k = j
      · exact h.empty k hk (by rw [d]; exact Ne.symm c)
      · rw [if_neg d] at hne; exact h.empty k hk hne
  · intro k hk
    rw [hs, he]
    obtain ⟨h1, h2, h3⟩ := hg' k hk
    rw [if_neg h1, if_neg h1]
    by_cases c : (if g k = j then i else g k) = i
    · rw [if_pos c, if_pos c]; omega
    · rw [if_neg c, if_neg c]
      have hkj : g k ≠ j := fun hh => c (by rw [if_pos hh])
      rw [if_neg hkj]; exact h.holder k hk
  · intro k l hk hl
    obtain ⟨h1, h2, h3⟩ := hg' k hk
    rw [a3 _ _ h2 hl, hgeq]
    generalize hr : (if g k = j then i else g k) = r at *
    have hrow : t.act r l = true ↔ g l = r := by
      have := h.active r l h2 hl; rwa [h3] at this
    rw [hrow, h3]
    have hrk : r = g k ∨ (r = i ∧ g k = j) := by
      by_cases c : g k = j
      · rw [if_pos c] at hr; exact Or.inr ⟨hr.symm, c⟩
      · rw [if_neg c] at hr; exact Or.inl hr.symm
    constructor
    · rintro (e | ⟨e1, e2 | e2⟩ | ⟨e1, _⟩ | ⟨e1, e2 | e2⟩ | ⟨e1, e2⟩)
      · rcases hrk with e3 | ⟨e3, e4⟩
        · exact Or.inl (by rw [e, e3])
        · exact Or.inr ⟨Or.inl (by rw [e, e3]), Or.inr e4⟩
      · subst e1
        rcases hrk with e3 | ⟨e3, e4⟩
        · exact Or.inr ⟨Or.inr gj, Or.inl (by rw [← e3, e2])⟩
        · exact Or.inl (by rw [gj, e4])
      · exact absurd e2 h1
      · exact absurd e1 h1
      · subst e1
        rcases hrk with e3 | ⟨e3, e4⟩
        · exact Or.inl (by rw [gi, ← e3, e2])
        · exact Or.inr ⟨Or.inl gi, Or.inr e4⟩
      · exact absurd e2 h1
      · rcases hrk with e3 | ⟨e3, e4⟩
        · exact Or.inr ⟨e2, Or.inl (by rw [← e3, e1])⟩
        · exact Or.inr ⟨e2, Or.inr e4⟩
    · rintro (e | ⟨e, e'⟩)
      · rcases hrk with e3 | ⟨e3, e4⟩
        · exact Or.inl (by rw [e, e3])
        · exact Or.inr (Or.inr (Or.inr (Or.inr ⟨e3, Or.inr (by rw [e, e4])⟩)))
      · have : r = i := by
          rcases hrk with e3 | ⟨e3, _⟩
          · rcases e' with e' | e'
            · rw [e3, e']
            · exact absurd (by rw [e3, e']) h1
          · exact e3
        exact Or.inr (Or.inr (Or.inr (Or.inr ⟨this, e⟩)))
  · intro k l hk hl
    obtain ⟨h1, h2, h3⟩ := hg' k hk
    rw [a3 _ _ hl h2, hgeq]
    generalize hr : (if g k = j then i else g k) = r at *
    have hcol : t.act l r = true ↔ g l = r := by
      have := h.activeR r l h2 hl; rwa [h3] at this
    rw [hcol, h3]
    have hrk : r = g k ∨ (r = i ∧ g k = j) := by
      by_cases c : g k = j
      · rw [if_pos c] at hr; exact Or.inr ⟨hr.symm, c⟩
      · rw [if_neg c] at hr; exact Or.inl hr.symm
    constructor
    · rintro (e | ⟨e1, _⟩ | ⟨e1, e2 | e2⟩ | ⟨e1, e2⟩ | ⟨e1, e2 | e2⟩)
      · rcases hrk with e3 | ⟨e3, e4⟩
        · exact Or.inl (by rw [e, e3])
        · exact Or.inr ⟨Or.inl (by rw [e, e3]), Or.inr e4⟩
      · exact absurd e1 h1
      · subst e1
        rcases hrk with e3 | ⟨e3, e4⟩
        · exact Or.inr ⟨Or.inr gj, Or.inl (by rw [← e3, e2])⟩
        · exact Or.inl (by rw [gj, e4])
      · exact absurd e2 h1
      · rcases hrk with e3 | ⟨e3, e4⟩
        · exact Or.inr ⟨e2, Or.inl (by rw [← e3, e1])⟩
        · exact Or.inr ⟨e2, Or.inr e4⟩
      · subst e1
        rcases hrk with e3 | ⟨e3, e4⟩
        · exact Or.inl (by rw [gi, ← e3, e2])
        · exact Or.inr ⟨Or.inl gi, Or.inr e4⟩
      · exact absurd e2 h1
    · rintro (e | ⟨e, e'⟩)
      · rcases hrk with e3 | ⟨e3, e4⟩
        · exact Or.inl (by rw [e, e3])
        · exact Or.inr (Or.inr (Or.inr (Or.inl ⟨e3, Or.inr (by rw [e, e4])⟩)))
      · have : r = i := by
          rcases hrk with e3 | ⟨e3, _⟩
          · rcases e' with e' | e'
            · rw [e3, e']
            · exact absurd (by rw [e3, e']) h1
          · exact e3
        exact Or.inr (Or.inr (Or.inr (Or.inl ⟨this, e⟩)))
  · intro k l hk hl hact
    rw [a3 k l hk hl] at hact
    rw [eq_comm, hgeq]
    rcases hact with e | ⟨rfl, e2 | rfl⟩ | ⟨rfl, e2 | rfl⟩ | ⟨rfl, e2⟩ | ⟨rfl, e2⟩
    · exact Or.inl (h.same k l hk hl e).symm
    · exact Or.inr ⟨Or.inr gj, Or.inl e2⟩
    · exact Or.inl rfl
    · exact Or.inr ⟨Or.inl e2, Or.inr gj⟩
    · exact Or.inl rfl
    · exact Or.inr ⟨Or.inl gi, e2⟩
    · exact Or.inr ⟨e2, Or.inl gi⟩

/-- Every operation of the loops keeps the lines grouped. -/
def Has (n : Nat) (out : Nat → Bool) (s0 e0 : Nat → ℤ) (t : Sup) : Prop := ∃ g, Grouped n out s0 e0 t g

theorem foldl_keeps {σ α : Type} {f : σ → α → σ} (P : σ → Prop) : ∀ (l : List α) (s : σ), P s → (∀ s, ∀ x ∈ l, P s → P (f s x)) →
    P (l.foldl f s)
  | [], s, h, _ => h
  | a :: l, s, h, hf => foldl_keeps P l (f s a) (hf s a (by simp) h) (fun s x hx => hf s x (by simp [hx]))

/-- The lines whose support is not empty. -/
def Act (n : Nat) (out : Nat → Bool) (t : Sup) (k : Nat) : Prop := In n out k ∧ t.s k ≤ t.e k

theorem pairStep_keeps {n : Nat} {out : Nat → Bool} {s0 e0 : Nat → ℤ} {t : Sup} {i j : Nat} (hi : In n out i) (hj : j < n)
    (h : Has n out s0 e0 t ∧ t.s i ≤ t.e i) :
    Has n out s0 e0 (pairStep n out i t j) ∧ (pairStep n out i t j).s i ≤ (pairStep n out i t j).e i := by
  obtain ⟨⟨g, h⟩, hact⟩ := h
  unfold pairStep
  split
  · exact ⟨⟨g, h⟩, hact⟩
  · rename_i ho
    split
    · exact ⟨⟨g, h⟩, hact⟩
    · rename_i ha
      split
      · exact ⟨⟨g, h⟩, hact⟩
      · rename_i hij
        split
        · rename_i hov
          have hjn : In n out j := ⟨hj, by simpa using ho⟩
          refine ⟨⟨_, h.merge hi hjn hij hact (not_lt.1 ha) hov⟩, ?_⟩
          simp only [EltSup.merge, upd, if_neg hij, if_true]
          rw [overlaps_iff] at hov
          omega
        · exact ⟨⟨g, h⟩, hact⟩

theorem lineStep_keeps {n : Nat} {out : Nat → Bool} {s0 e0 : Nat → ℤ} {t : Sup} {i : Nat} (hi : i < n)
    (h : Has n out s0 e0 t) : Has n out s0 e0 (lineStep n out t i) := by
  unfold lineStep
  split
  · exact h
  · rename_i ho
    split
    · exact h
    · rename_i ha
      have hin : In n out i := ⟨hi, by simpa using ho⟩
      exact (foldl_keeps (fun t => Has n out s0 e0 t ∧ t.s i ≤ t.e i) (List.range n) t ⟨h, not_lt.1 ha⟩
        (fun t j hj ht => pairStep_keeps hin (List.mem_range.1 hj) ht)).1

theorem pass_keeps {n : Nat} {out : Nat → Bool} {s0 e0 : Nat → ℤ} {t : Sup} (h : Has n out s0 e0 t) :
    Has n out s0 e0 (pass n out t) :=
  foldl_keeps (Has n out s0 e0) (List.range n) t h (fun t i hi ht => lineStep_keeps (List.mem_range.1 hi) ht)

theorem passes_keeps {n : Nat} {out : Nat → Bool} {s0 e0 : Nat → ℤ} : ∀ (k : Nat) (t : Sup), Has n out s0 e0 t →
    Has n out s0 e0 (passes n out k t)
  | 0, t, h => h
  | k + 1, t, h => by
    unfold passes
    simp only
    split
    · exact passes_keeps k _ (pass_keeps h)
    · exact pass_keeps h

/-! ## The number of passes -/

/-- Number of lines with a support that is not empty. -/
def count (n : Nat) (out : Nat → Bool) (t : Sup) : Nat :=
  (List.range n).countP fun k => !out k && decide (t.s k ≤ t.e k)

theorem count_merge {n : Nat} {out : Nat → Bool} {t : Sup} {i j : Nat} (hi : In n out i) (hj : In n out j) (hij : i ≠ j)
    (ai : t.s i ≤ t.e i) (aj : t.s j ≤ t.e j) : count n out (merge n out i j t) < count n out t := by
  unfold count
  have hle : ∀ k ∈ List.range n, (!out k && decide ((merge n out i j t).s k ≤ (merge n out i j t).e k)) = true →
      (!out k && decide (t.s k ≤ t.e k)) = true := by
    intro k _
    simp only [merge, upd, Bool.and_eq_true, decide_eq_true_iff]
    rintro ⟨h1, h2⟩
    refine ⟨h1, ?_⟩
    by_cases c : k = j
    · subst c; exact aj
    · simp only [if_neg c] at h2
      by_cases d : k = i
      · subst d; exact ai
      · exact of_decide_eq_true (by simpa only [if_neg d] using h2)
  have hj' : (!out j && decide ((merge n out i j t).s j ≤ (merge n out i j t).e j)) = false := by
    simp only [merge, upd, if_true, Bool.and_eq_false_iff]
    right
    simp
  have hj2 : (!out j && decide (t.s j ≤ t.e j)) = true := by simp [hj.2, aj]
  have key : ∀ l : List Nat, (∀ k ∈ l, (!out k && decide ((merge n out i j t).s k ≤ (merge n out i j t).e k)) = true →
      (!out k && decide (t.s k ≤ t.e k)) = true) → j ∈ l →
      l.countP (fun k => !out k && decide ((merge n out i j t).s k ≤ (merge n out i j t).e k)) <
      l.countP (fun k => !out k && decide (t.s k ≤ t.e k)) := by
    intro l
    induction l with
    | nil => intro _ h; simp at h
    | cons a l ih =>
      intro hl hmem
      rw [List.countP_cons, List.countP_cons]
      have hmono : l.countP (fun k => !out k && decide ((merge n out i j t).s k ≤ (merge n out i j t).e k)) ≤
          l.countP (fun k => !out k && decide (t.s k ≤ t.e k)) :=
        List.countP_mono_left (fun k hk h => hl k (by simp [hk]) h)
      rcases List.mem_cons.1 hmem with rfl | hm
      · rw [if_neg (by rw [hj']; simp), if_pos hj2]; omega
      · have := ih (fun k hk => hl k (by simp [hk])) hm
        have ha := hl a (by simp)
        by_cases c : (!out a && decide ((merge n out i j t).s a ≤ (merge n out i j t).e a)) = true
        · rw [if_pos c, if_pos (ha c)]; omega
        · rw [if_neg c]; split <;> omega
  exact key _ hle (List.mem_range.2 hj.1)

theorem pairStep_count {n : Nat} {out : Nat → Bool} {t : Sup} {i j : Nat} (hi : In n out i) (hj : j < n) (ai : t.s i ≤ t.e i) :
    pairStep n out i t j = t ∨ count n out (pairStep n out i t j) < count n out t := by
  unfold pairStep
  split
  · exact Or.inl rfl
  · rename_i ho
    split
    · exact Or.inl rfl
    · rename_i ha
      split
      · exact Or.inl rfl
      · rename_i hij
        split
        · exact Or.inr (count_merge hi ⟨hj, by simpa using ho⟩ hij ai (not_lt.1 ha))
        · exact Or.inl rfl

/-- A loop each step of which keeps the state or makes it smaller. -/
theorem foldl_dec {σ α : Type} {f : σ → α → σ} (I : σ → Prop) (c : σ → Nat) : ∀ (l : List α) (s : σ), I s →
    (∀ s, ∀ x ∈ l, I s → I (f s x) ∧ (f s x = s ∨ c (f s x) < c s)) →
    (l.foldl f s = s ∧ ∀ x ∈ l, f s x = s) ∨ c (l.foldl f s) < c s
  | [], s, h, _ => Or.inl ⟨rfl, by simp⟩
  | a :: l, s, h, hf => by
    obtain ⟨h1, h2⟩ := hf s a (by simp) h
    have ih := foldl_dec I c l (f s a) h1 (fun s x hx => hf s x (by simp [hx]))
    rw [List.foldl_cons]
    rcases h2 with h2 | h2
    · rw [h2] at ih ⊢
      rcases ih with ⟨h3, h4⟩ | h3
      · exact Or.inl ⟨h3, by
          intro x hx
          rcases List.mem_cons.1 hx with rfl | hx
          · exact h2
          · exact h4 x hx⟩
      · exact Or.inr h3
    · right
      rcases ih with ⟨h3, _⟩ | h3
      · rw [h3]; exact h2
      · exact h3.trans h2

theorem lineStep_count {n : Nat} {out : Nat → Bool} {s0 e0 : Nat → ℤ} {t : Sup} {i : Nat} (hi : i < n) (h : Has n out s0 e0 t) :
    (lineStep n out t i = t ∧ (out i = false → t.s i ≤ t.e i → ∀ j, j < n → pairStep n out i t j = t)) ∨
    count n out (lineStep n out t i) < count n out t := by
  unfold lineStep
  split
  · rename_i ho
    exact Or.inl ⟨rfl, by intro h; rw [ho] at h; cases h⟩
  · rename_i ho
    split
    · rename_i ha
      exact Or.inl ⟨rfl, by intro _ h; omega⟩
    · rename_i ha
      have hin : In n out i := ⟨hi, by simpa using ho⟩
      rcases foldl_dec (fun t => Has n out s0 e0 t ∧ t.s i ≤ t.e i) (count n out) (List.range n) t ⟨h, not_lt.1 ha⟩
        (fun t j hj ht => ⟨pairStep_keeps hin (List.mem_range.1 hj) ht, pairStep_count hin (List.mem_range.1 hj) ht.2⟩) with ⟨h1, h2⟩ | h1
      · exact Or.inl ⟨h1, fun _ _ j hj => h2 j (List.mem_range.2 hj)⟩
      · exact Or.inr h1

theorem hasDup_iff {n : Nat} {out : Nat → Bool} {t : Sup} : hasDup n out t = true ↔
    ∃ i j, In n out i ∧ In n out j ∧ i ≠ j ∧ overlaps (t.s i) (t.e i) (t.s j) (t.e j) = true := by
  unfold hasDup In
  simp only [List.any_eq_true, List.mem_range, Bool.and_eq_true, Bool.not_eq_true', decide_eq_false_iff_not]
  constructor
  · rintro ⟨i, hi, h1, j, hj, ⟨h2, h3⟩, h4⟩
    exact ⟨i, j, ⟨hi, h1⟩, ⟨hj, h2⟩, h3, h4⟩
  · rintro ⟨i, j, ⟨hi, h1⟩, ⟨hj, h2⟩, h3, h4⟩
    exact ⟨i, hi, h1, j, hj, ⟨h2, h3⟩, h4⟩

theorem pass_count {n : Nat} {out : Nat → Bool} {s0 e0 : Nat → ℤ} {t : Sup} (h : Has n out s0 e0 t) :
    (pass n out t = t ∧ hasDup n out t = false) ∨ count n out (pass n out t) < count n out t := by
  unfold pass
  rcases foldl_dec (Has n out s0 e0) (count n out) (List.range n) t h (fun t i hi ht =>
    ⟨lineStep_keeps (List.mem_range.1 hi) ht, (lineStep_count (List.mem_range.1 hi) ht).imp (fun h => h.1) id⟩) with ⟨h1, h2⟩ | h1
  · left
    refine ⟨h1, ?_⟩
    by_contra hd
    obtain ⟨i, j, hi, hj, hij, ho⟩ := hasDup_iff.1 (by simpa using hd)
    have hai : t.s i ≤ t.e i := by rw [overlaps_iff] at ho; omega
    have haj : t.s j ≤ t.e j := by rw [overlaps_iff] at ho; omega
    rcases lineStep_count hi.1 h with ⟨_, h3⟩ | h3
    · have h4 := h3 hi.2 hai j hj.1
      unfold pairStep at h4
      rw [if_neg (by rw [hj.2]; simp), if_neg (not_lt.2 haj), if_neg hij, if_pos ho] at h4
      have := count_merge hi hj hij hai haj
      rw [h4] at this
      exact absurd this (lt_irrefl _)
    · rw [h2 i (List.mem_range.2 hi.1)] at h3
      exact absurd h3 (lt_irrefl _)
  · exact Or.inr h1

theorem two_le_count {n : Nat} {out : Nat → Bool} {t : Sup} (h : hasDup n out t = true) : 2 ≤ count n out t := by
  obtain ⟨i, j, hi, hj, hij, ho⟩ := hasDup_iff.1 h
  rw [overlaps_iff] at ho
  unfold count
  rw [List.countP_eq_length_filter]
  have hmem : ∀ k, In n out k → t.s k ≤ t.e k → k ∈ (List.range n).filter (fun k => !out k && decide (t.s k ≤ t.e k)) := by
    intro k hk ha
    rw [List.mem_filter]
    exact ⟨List.mem_range.2 hk.1, by simp [hk.2, ha]⟩
  have h1 := hmem i hi (by omega)
  have h2 := hmem j hj (by omega)
  by_contra hlt
  push Not at hlt
  generalize (List.range n).filter (fun k => !out k && decide (t.s k ≤ t.e k)) = L at *
  match L, hlt, h1, h2 with
  | [], _, h1, _ => simp at h1
  | [a], _, h1, h2 => simp at h1 h2; exact hij (h1.trans h2.symm)
  | a :: b :: L, hlt, _, _ => simp at hlt

theorem passes_noDup {n : Nat} {out : Nat → Bool} {s0 e0 : Nat → ℤ} : ∀ (k : Nat) (t : Sup), Has n out s0 e0 t →
    count n out t ≤ k + 1 → 0 < k → hasDup n out (passes n out k t) = false
  | 0, t, _, _, hk => by omega
  | k + 1, t, h, hc, _ => by
    unfold passes
    simp only
    have hp := pass_count h
    split
    · rename_i hd
      have h2 := two_le_count hd
      rcases hp with ⟨h1, h3⟩ | h1
      · rw [h1, h3] at hd; cases hd
      · exact passes_noDup k _ (pass_keeps h) (by omega) (by omega)
    · rename_i hd; simpa using hd

end EltSup
end Amazed
