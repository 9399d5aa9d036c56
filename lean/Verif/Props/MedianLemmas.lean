import Verif.Model.Median
import Verif.Model.Std
import Mathlib.Tactic.Common
import Mathlib.Order.BooleanAlgebra.Defs
import Mathlib.Order.BoundedOrder.Lattice
import Mathlib.Order.Monotone.Basic

/-! # Lemmas for C12 and C13 -/

namespace Amazed
namespace Median
variable {α : Type*} [LinearOrder α]

/-- `x` is the order statistic of rank `k` (from 0) of `l`: at most `k` elements are smaller, more than
`k` are smaller or equal. -/
def IsKth (l : List α) (k : Nat) (x : α) : Prop :=
  l.countP (fun y => decide (y < x)) ≤ k ∧ k < l.countP (fun y => decide (y ≤ x))

theorem pairwise_mergeSort_le (l : List α) : l.mergeSort.Pairwise (· ≤ ·) := by
  have := List.pairwise_mergeSort (le := fun a b : α => decide (a ≤ b))
    (fun a b c h1 h2 => by simp at *; exact le_trans h1 h2)
    (fun a b => by simp; exact le_total a b) l
  simpa using this

theorem countP_le_of_sorted {s : List α} {p : α → Bool} {k : Nat}
    (h : ∀ i (hi : i < s.length), k ≤ i → p s[i] = false) : s.countP p ≤ k := by
  have : s.countP p = (s.take k).countP p + (s.drop k).countP p := by
    rw [← List.countP_append, List.take_append_drop]
  have h0 : (s.drop k).countP p = 0 := by
    rw [List.countP_eq_zero]
    intro x hx
    obtain ⟨i, hi, rfl⟩ := List.getElem_of_mem hx
    simp only [List.getElem_drop]
    rw [h _ _ (by omega)]; simp
  have h1 : (s.take k).countP p ≤ (s.take k).length := List.countP_le_length
  simp only [List.length_take] at h1
  omega

theorem le_countP_of_sorted {s : List α} {p : α → Bool} {k : Nat} (hk : k ≤ s.length)
    (h : ∀ i (hi : i < s.length), i < k → p s[i] = true) : k ≤ s.countP p := by
  have : s.countP p = (s.take k).countP p + (s.drop k).countP p := by
    rw [← List.countP_append, List.take_append_drop]
  have h0 : (s.take k).countP p = (s.take k).length := by
    rw [List.countP_eq_length]
    intro x hx
    obtain ⟨i, hi, rfl⟩ := List.getElem_of_mem hx
    simp only [List.length_take] at hi
    simp only [List.getElem_take]
    exact h _ _ (by omega)
  simp only [List.length_take] at h0
  omega

/-- An order statistic is the element of that rank in the sorted list. -/
theorem IsKth.sort {l : List α} {k : Nat} {x : α} (h : IsKth l k x) : l.mergeSort[k]? = some x := by
  have hp := List.mergeSort_perm l (fun a b => decide (a ≤ b))
  have hs := pairwise_mergeSort_le l
  obtain ⟨h1, h2⟩ := h
  rw [← hp.countP_eq] at h1 h2
  generalize l.mergeSort = s at *
  have hk : k < s.length := lt_of_lt_of_le h2 List.countP_le_length
  rw [List.getElem?_eq_getElem hk]
  congr 1
  apply le_antisymm
  · by_contra hc
    push Not at hc
    have := countP_le_of_sorted (s := s) (p := fun y => decide (y ≤ x)) (k := k) (fun i hi hki => by
      have := getElem_le_of_le hs hki hi
      simp only [decide_eq_false_iff_not, not_le]
      exact lt_of_lt_of_le hc this)
    omega
  · by_contra hc
    push Not at hc
    have := le_countP_of_sorted (s := s) (p := fun y => decide (y < x)) (k := k + 1) (by omega)
      (fun i hi hki => by
        have := getElem_le_of_le hs (by omega : i ≤ k) hk
        simp only [decide_eq_true_eq]
        exact lt_of_le_of_lt this hc)
    omega

theorem isKth_of_sort {l : List α} {k : Nat} {x : α} (h : l.mergeSort[k]? = some x) : IsKth l k x := by
  have hp := List.mergeSort_perm l (fun a b => decide (a ≤ b))
  have hs := pairwise_mergeSort_le l
  unfold IsKth
  rw [← hp.countP_eq, ← hp.countP_eq]
  generalize l.mergeSort = s at *
  obtain ⟨hk, rfl⟩ := List.getElem?_eq_some_iff.1 h
  constructor
  · apply countP_le_of_sorted
    intro i hi hki
    simpa using getElem_le_of_le hs hki hi
  · have := le_countP_of_sorted (s := s) (p := fun y => decide (y ≤ s[k])) (k := k + 1) (by omega)
      (fun i hi hki => by simpa using getElem_le_of_le hs (by omega : i ≤ k) hk)
    omega

/-! ## Networks: the 0/1 principle -/

theorem sortPair_map {β : Type*} [LinearOrder β] (f : α → β) (hf : Monotone f) (p : List α)
    (ij : Nat × Nat) (hne : ij.1 ≠ ij.2) :
    (sortPair p ij).map f = sortPair (p.map f) ij := by
  unfold sortPair
  rw [List.getElem?_map, List.getElem?_map]
  cases h1 : p[ij.1]? with
  | none => simp
  | some a =>
    cases h2 : p[ij.2]? with
    | none => simp
    | some b =>
      simp only [Option.map_some]
      by_cases hab : a > b
      · rw [if_pos hab]
        by_cases hfab : f a > f b
        · rw [if_pos hfab]; simp
        · rw [if_neg hfab]
          have heq : f a = f b := le_antisymm (not_lt.1 hfab) (hf (le_of_lt hab))
          apply List.ext_getElem?
          intro i
          simp only [List.map_set, List.getElem?_set, List.length_map, List.length_set]
          obtain ⟨hl1, e1⟩ := List.getElem?_eq_some_iff.1 h1
          obtain ⟨hl2, e2⟩ := List.getElem?_eq_some_iff.1 h2
          by_cases c1 : ij.2 = i
          · subst c1; simp [hl2, e2, heq]
          · by_cases c2 : ij.1 = i
            · subst c2; simp [c1, hl1, e1, heq]
            · simp [c1, c2]
      · rw [if_neg hab, if_neg (not_lt.2 (hf (not_lt.1 hab)))]

theorem foldl_sortPair_map {β : Type*} [LinearOrder β] (f : α → β) (hf : Monotone f)
    (pairs : List (Nat × Nat)) (p : List α) (hne : ∀ ij ∈ pairs, ij.1 ≠ ij.2) :
    (pairs.foldl sortPair p).map f = pairs.foldl sortPair (p.map f) := by
  induction pairs generalizing p with
  | nil => rfl
  | cons ij pairs ih =>
    simp only [List.foldl_cons]
    rw [ih _ (fun x hx => hne x (by simp [hx])), sortPair_map f hf p ij (hne ij (by simp))]

theorem length_sortPair (p : List α) (ij : Nat × Nat) : (sortPair p ij).length = p.length := by
  unfold sortPair
  split
  · split <;> simp
  · rfl

theorem length_foldl_sortPair (pairs : List (Nat × Nat)) (p : List α) :
    (pairs.foldl sortPair p).length = p.length := by
  induction pairs generalizing p with
  | nil => rfl
  | cons ij pairs ih => simp only [List.foldl_cons]; rw [ih, length_sortPair]

/-- All boolean lists of a length. -/
def allBool : Nat → List (List Bool)
  | 0 => [[]]
  | n + 1 => (allBool n).flatMap (fun l => [false :: l, true :: l])

theorem mem_allBool (l : List Bool) : l ∈ allBool l.length := by
  induction l with
  | nil => simp [allBool]
  | cons a l ih =>
    simp only [List.length_cons, allBool, List.mem_flatMap]
    exact ⟨l, ih, by cases a <;> simp⟩

/-- A network that selects the right boolean on every boolean input of length `n`. -/
def GoodOnBool (pairs : List (Nat × Nat)) (n m : Nat) : Prop :=
  ∀ l ∈ allBool n, (pairs.foldl sortPair l)[m]? = some (decide (n - m ≤ l.countP id))

instance (pairs : List (Nat × Nat)) (n m : Nat) : Decidable (GoodOnBool pairs n m) := by
  unfold GoodOnBool; infer_instance

theorem countP_not_aux (l : List α) (p : α → Bool) : l.countP p + l.countP (fun x => !p x) = l.length := by
  induction l with
  | nil => rfl
  | cons a l ih => simp only [List.countP_cons, List.length_cons]; cases p a <;> simp <;> omega

/-- 0/1 principle for selection networks. -/
theorem network_correct (pairs : List (Nat × Nat)) (n m : Nat) (hm : m < n)
    (hne : ∀ ij ∈ pairs, ij.1 ≠ ij.2) (hgood : GoodOnBool pairs n m) (l : List α)
    (hl : l.length = n) : ∃ x, network pairs m l = .ok x ∧ IsKth l m x := by
  have hlen : m < (pairs.foldl sortPair l).length := by rw [length_foldl_sortPair]; omega
  refine ⟨(pairs.foldl sortPair l)[m], Res.at_of_lt hlen, ?_⟩
  generalize hr : (pairs.foldl sortPair l)[m] = r
  -- the result under a monotone map to Bool
  have key : ∀ f : α → Bool, Monotone f → f r = decide (n - m ≤ l.countP f) := by
    intro f hf
    have h1 := hgood (l.map f) (by have := mem_allBool (l.map f); rwa [List.length_map, hl] at this)
    rw [← foldl_sortPair_map f hf pairs l hne, List.getElem?_map,
      List.getElem?_eq_getElem hlen, hr] at h1
    simp only [Option.map_some, Option.some.injEq, List.countP_map] at h1
    rw [h1]; rfl
  have e1 := key (fun y => decide (r ≤ y)) (by
    intro a b hab
    simp only
    by_cases h : r ≤ a
    · simp [h, le_trans h hab]
    · simp [h])
  have e2 := key (fun y => decide (r < y)) (by
    intro a b hab
    simp only
    by_cases h : r < a
    · simp [h, lt_of_lt_of_le h hab]
    · simp [h])
  simp only [le_refl, decide_true, lt_irrefl, decide_false] at e1 e2
  have e1' := of_decide_eq_true e1.symm
  have e2' := of_decide_eq_false e2.symm
  have c1 := countP_not_aux l (fun y => decide (r ≤ y))
  have c2 := countP_not_aux l (fun y => decide (r < y))
  have n1 : (fun y => !decide (r ≤ y)) = fun y => decide (y < r) := by
    funext y; simp [← not_le]
  have n2 : (fun y => !decide (r < y)) = fun y => decide (y ≤ r) := by
    funext y; simp [← not_lt]
  rw [n1] at c1
  rw [n2] at c2
  exact ⟨by omega, by omega⟩

/-! ## Wirth selection -/

theorem scanUp_spec (a : List α) (x : α) (i fuel s : Nat) (his : i ≤ s) (hs : s < a.length)
    (hx : x ≤ a[s]) (hf : s - i < fuel) :
    ∃ i' : Nat, scanUp a x i fuel = .ok (i' : Int) ∧ i ≤ i' ∧ i' ≤ s ∧
      (∀ p (hp : p < a.length), i ≤ p → p < i' → a[p] < x) ∧
      (∀ hp : i' < a.length, x ≤ a[i']) := by
  induction fuel generalizing i with
  | zero => omega
  | succ fuel ih =>
    unfold scanUp
    rw [List.getElem?_eq_getElem (by omega : i < a.length)]
    simp only []
    by_cases h : a[i] < x
    · rw [if_pos h]
      have hne : i ≠ s := by rintro rfl; exact absurd h (not_lt.2 hx)
      obtain ⟨i', h1, h2, h3, h4, h5⟩ := ih (i + 1) (by omega) (by omega)
      refine ⟨i', h1, by omega, h3, ?_, h5⟩
      intro p hp hip hpi
      rcases Nat.eq_or_lt_of_le hip with rfl | hlt
      · exact h
      · exact h4 p hp (by omega) hpi
    · rw [if_neg h]
      exact ⟨i, rfl, le_rfl, his, by intros; omega, fun _ => not_lt.1 h⟩

theorem scanDown_spec (a : List α) (x : α) (j1 s : Nat) (hsj : s < j1) (hj : j1 ≤ a.length)
    (hx : a[s] ≤ x) :
    ∃ j' : Nat, scanDown a x j1 = .ok (j' : Int) ∧ j' < j1 ∧ s ≤ j' ∧
      (∀ p (hp : p < a.length), p < j1 → j' < p → x < a[p]) ∧
      (∀ hp : j' < a.length, a[j'] ≤ x) := by
  induction j1 with
  | zero => omega
  | succ j1 ih =>
    unfold scanDown
    rw [List.getElem?_eq_getElem (by omega : j1 < a.length)]
    simp only []
    by_cases h : x < a[j1]
    · rw [if_pos h]
      have hne : j1 ≠ s := by rintro rfl; exact absurd h (not_lt.2 hx)
      obtain ⟨j', h1, h2, h3, h4, h5⟩ := ih (by omega) (by omega) hx
      refine ⟨j', h1, by omega, h3, ?_, h5⟩
      intro p hp hp1 hp2
      rcases Nat.lt_or_ge p j1 with h6 | h6
      · exact h4 p hp h6 hp2
      · have : p = j1 := by omega
        subst this; exact h
    · rw [if_neg h]
      exact ⟨j1, rfl, by omega, by omega, by intros; omega, fun _ => not_lt.1 h⟩

theorem swap_spec (a : List α) (i j : Nat) (hi : i < a.length) (hj : j < a.length) :
    ∃ a', swap a i j = .ok a' ∧ a'.length = a.length ∧ a'.Perm a ∧
      ∀ p (hp : p < a'.length) (hp' : p < a.length),
        a'[p] = if p = j then a[i] else if p = i then a[j] else a[p] := by
  unfold swap
  rw [List.getElem?_eq_getElem hi, List.getElem?_eq_getElem hj]
  refine ⟨_, rfl, by simp, List.set_set_perm hi hj, ?_⟩
  intro p hp hp'
  simp only [List.getElem_set, eq_comm (a := p)]

/-- `a'` differs from `a` only by a rearrangement of the cells `l..m`. -/
structure Rearranged (a a' : List α) (l m : Nat) : Prop where
  perm : a'.Perm a
  len : a'.length = a.length
  outside : ∀ p (hp : p < a'.length) (hp' : p < a.length), p < l ∨ m < p → a'[p] = a[p]
  inside : ∀ p (hp : p < a'.length), l ≤ p → p ≤ m → ∃ q, ∃ hq : q < a.length, l ≤ q ∧ q ≤ m ∧ a'[p] = a[q]

theorem Rearranged.refl (a : List α) (l m : Nat) : Rearranged a a l m :=
  ⟨List.Perm.refl _, rfl, fun _ _ _ _ => rfl, fun p hp h1 h2 => ⟨p, hp, h1, h2, rfl⟩⟩

theorem Rearranged.trans {a b c : List α} {l m : Nat} (h1 : Rearranged a b l m)
    (h2 : Rearranged b c l m) : Rearranged a c l m := by
  refine ⟨h2.perm.trans h1.perm, h2.len.trans h1.len, ?_, ?_⟩
  · intro p hp hp' ho
    rw [h2.outside p hp (by rw [h1.len]; exact hp') ho, h1.outside p _ hp' ho]
  · intro p hp hl hm
    obtain ⟨q, hq, h3, h4, h5⟩ := h2.inside p hp hl hm
    obtain ⟨r, hr, h6, h7, h8⟩ := h1.inside q hq h3 h4
    exact ⟨r, hr, h6, h7, h5.trans h8⟩

theorem swap_rearranged {a a' : List α} {i j l m : Nat} (hi : i < a.length) (hj : j < a.length)
    (h : swap a i j = .ok a') (hil : l ≤ i) (him : i ≤ m) (hjl : l ≤ j) (hjm : j ≤ m) :
    Rearranged a a' l m := by
  obtain ⟨b, hb, hlen, hperm, hget⟩ := swap_spec a i j hi hj
  rw [h] at hb
  simp only [Res.ok.injEq] at hb
  subst hb
  refine ⟨hperm, hlen, ?_, ?_⟩
  · intro p hp hp' ho
    rw [hget p hp hp', if_neg (by omega), if_neg (by omega)]
  · intro p hp h1 h2
    rw [hget p hp (by omega)]
    split
    · exact ⟨i, hi, hil, him, rfl⟩
    · split
      · exact ⟨j, hj, hjl, hjm, rfl⟩
      · exact ⟨p, by omega, h1, h2, rfl⟩

/-- The partition loop, from inside: it ends, stays in bounds, and splits the cells `l..m`. The
hypotheses are the loop invariant with two sentinels. -/
theorem partition_spec (x : α) (l m : Nat) (fuel : Nat) (a : List α) (i : Nat) (j : Int)
    (hm : m < a.length) (hli : l ≤ i) (hjm : j ≤ m)
    (hup : ∃ s, ∃ hs : s < a.length, i ≤ s ∧ s ≤ m ∧ x ≤ a[s])
    (hdown : ∃ s, ∃ hs : s < a.length, l ≤ s ∧ (s : Int) ≤ j ∧ a[s] ≤ x)
    (hlo : ∀ p (hp : p < a.length), l ≤ p → p < i → a[p] ≤ x)
    (hhi : ∀ p (hp : p < a.length), j < p → p ≤ m → x ≤ a[p])
    (hfuel : (j - i).toNat < fuel) :
    ∃ a' i' j', partition x a i j fuel = .ok (a', (i' : Nat), j') ∧ Rearranged a a' l m ∧
      i ≤ i' ∧ j' ≤ j ∧ j' < i' ∧ (i' ≤ m + 1) ∧ (l : Int) - 1 ≤ j' ∧
      (∀ p (hp : p < a'.length), l ≤ p → p < i' → a'[p] ≤ x) ∧
      (∀ p (hp : p < a'.length), j' < p → p ≤ m → x ≤ a'[p]) ∧
      ((∃ s, ∃ hs : s < a.length, i ≤ s ∧ (s : Int) ≤ j ∧ a[s] = x) → i < i' ∧ j' < j) := by
  induction fuel generalizing a i j with
  | zero => omega
  | succ fuel ih =>
    obtain ⟨s, hs, hs1, hs2, hs3⟩ := hup
    obtain ⟨t, ht, ht1, ht2, ht3⟩ := hdown
    unfold partition
    rw [if_neg (by omega)]
    obtain ⟨i', hi1, hi2, hi3, hi4, hi5⟩ :=
      scanUp_spec a x i (a.length + 1) s hs1 hs hs3 (by omega)
    obtain ⟨j', hj1, hj2, hj3, hj4, hj5⟩ :=
      scanDown_spec a x (j + 1).toNat t (by omega) (by omega) ht3
    have hi1' : scanUp a x (Int.toNat (i : Int)) (a.length + 1) = .ok (i' : Int) := by simpa using hi1
    rw [hi1', hj1]
    simp only []
    -- cells skipped by the scans
    have hlo' : ∀ p (hp : p < a.length), l ≤ p → p < i' → a[p] ≤ x := by
      intro p hp h1 h2
      by_cases h3 : p < i
      · exact hlo p hp h1 h3
      · exact le_of_lt (hi4 p hp (by omega) h2)
    have hhi' : ∀ p (hp : p < a.length), j' < p → p ≤ m → x ≤ a[p] := by
      intro p hp h1 h2
      by_cases h3 : j < p
      · exact hhi p hp h3 h2
      · exact le_of_lt (hj4 p hp (by omega) h1)
    by_cases hij : i' ≤ j'
    · have hij' : (i' : Int) ≤ (j' : Int) := by omega
      rw [if_pos hij']
      obtain ⟨b, hb, hblen, _, hbget⟩ := swap_spec a i' j' (by omega) (by omega)
      have hbr := swap_rearranged (l := l) (m := m) (by omega) (by omega) hb (by omega) (by omega)
        (by omega) (by omega)
      simp only [Int.toNat_natCast, hb]
      have hbi : ∀ h : i' < b.length, b[i'] ≤ x := by
        intro h
        rw [hbget i' h (by omega)]
        split
        · rename_i he
          subst he; exact hj5 _
        · simp; exact hj5 _
      have hbj : ∀ h : j' < b.length, x ≤ b[j'] := by
        intro h
        rw [hbget j' h (by omega)]
        simp; exact hi5 _
      have hlo2 : ∀ p (hp : p < b.length), l ≤ p → p < i' + 1 → b[p] ≤ x := by
        intro p hp h1 h2
        by_cases h3 : p = i'
        · subst h3; exact hbi hp
        · rw [hbget p hp (by omega), if_neg (by omega), if_neg h3]
          exact hlo' p _ h1 (by omega)
      have hhi2 : ∀ p (hp : p < b.length), (j' : Int) - 1 < p → p ≤ m → x ≤ b[p] := by
        intro p hp h1 h2
        by_cases h3 : p = j'
        · subst h3; exact hbj hp
        · rw [hbget p hp (by omega), if_neg h3, if_neg (by omega)]
          exact hhi' p _ (by omega) h2
      by_cases hcont : (i' : Int) + 1 ≤ (j' : Int) - 1
      · rw [if_pos hcont]
        obtain ⟨a', i2, j2, h1, h2, h3, h4, h5, h6, h6b, h7, h8, h9⟩ :=
          ih b (i' + 1) ((j' : Int) - 1) (by omega) (by omega) (by omega)
            ⟨j', by omega, by omega, by omega, hbj _⟩ ⟨i', by omega, by omega, by omega, hbi _⟩
            hlo2 hhi2 (by omega)
        refine ⟨a', i2, j2, ?_, hbr.trans h2, by omega, by omega, h5, h6, h6b, h7, h8, ?_⟩
        · rw [← h1]; norm_cast
        · intro _; omega
      · rw [if_neg hcont]
        refine ⟨b, i' + 1, (j' : Int) - 1, by norm_cast, hbr, by omega, by omega, by omega, by omega,
          by omega, hlo2, hhi2, fun _ => by omega⟩
    · rw [if_neg (by omega)]
      refine ⟨a, i', j', rfl, Rearranged.refl _ _ _, hi2, by omega, by omega, by omega, by omega, hlo',
        fun p hp h1 h2 => hhi' p hp (by omega) h2, ?_⟩
      rintro ⟨u, hu, hu1, hu2, hu3⟩
      -- the pivot is still between the two scans
      exfalso
      have h1 : i' ≤ u := by
        by_contra hc
        have := hi4 u hu hu1 (by omega)
        rw [hu3] at this; exact absurd this (lt_irrefl _)
      have h2 : u ≤ j' := by
        by_contra hc
        have := hj4 u hu (by omega) (by omega)
        rw [hu3] at this; exact absurd this (lt_irrefl _)
      omega

theorem isKth_of_split {a : List α} {k : Nat} (hk : k < a.length)
    (hlo : ∀ p (hp : p < a.length), p < k → a[p] ≤ a[k])
    (hhi : ∀ p (hp : p < a.length), k < p → a[k] ≤ a[p]) : IsKth a k a[k] := by
  constructor
  · apply countP_le_of_sorted
    intro i hi hki
    simp only [decide_eq_false_iff_not, not_lt]
    rcases Nat.eq_or_lt_of_le hki with rfl | h
    · exact le_rfl
    · exact hhi i hi h
  · have := le_countP_of_sorted (s := a) (p := fun y => decide (y ≤ a[k])) (k := k + 1) (by omega)
      (fun i hi hki => by
        simp only [decide_eq_true_eq]
        rcases Nat.eq_or_lt_of_le (by omega : i ≤ k) with rfl | h
        · exact le_rfl
        · exact hlo i hi h)
    omega

theorem IsKth.perm {a b : List α} {k : Nat} {x : α} (h : IsKth a k x) (hp : a.Perm b) : IsKth b k x := by
  unfold IsKth at *
  rwa [← hp.countP_eq, ← hp.countP_eq]

/-- The selection loop returns the order statistic of rank `k`. -/
theorem select_spec (k : Nat) (fuel : Nat) (a : List α) (l m : Nat) (hm : m < a.length)
    (hlk : l ≤ k) (hkm : k ≤ m) (hfuel : m - l ≤ fuel)
    (hlo : ∀ p q (hp : p < a.length) (hq : q < a.length), p < l → l ≤ q → a[p] ≤ a[q])
    (hhi : ∀ p q (hp : p < a.length) (hq : q < a.length), p ≤ m → m < q → a[p] ≤ a[q]) :
    ∃ x, select k a l m fuel = .ok x ∧ IsKth a k x := by
  have hdone : l = m → IsKth a k a[k] := by
    intro hlm
    apply isKth_of_split (by omega)
    · intro p hp hpk; exact hlo p k hp (by omega) (by omega) (by omega)
    · intro p hp hpk; exact hhi k p (by omega) hp (by omega) (by omega)
  induction fuel generalizing a l m with
  | zero =>
    unfold select
    rw [if_neg (by omega), Res.at_of_lt (by omega : k < a.length)]
    exact ⟨_, rfl, hdone (by omega)⟩
  | succ fuel ih =>
    unfold select
    by_cases hlm : l < m
    · have hlm' : (l : Int) < (m : Int) := by omega
      rw [if_pos hlm', Res.at_of_lt (by omega : k < a.length)]
      simp only []
      obtain ⟨b, i, j, h1, hb, h3, h4, h5, h6, h6b, h7, h8, h9⟩ :=
        partition_spec a[k] l m (a.length + 1) a l m hm le_rfl le_rfl
          ⟨k, by omega, hlk, hkm, le_rfl⟩ ⟨k, by omega, hlk, by omega, le_rfl⟩
          (by intros; omega) (by intros; omega) (by omega)
      obtain ⟨h10, h11⟩ := h9 ⟨k, by omega, hlk, by omega, rfl⟩
      rw [h1]
      simp only []
      have hbl := hb.len
      -- the two outer invariants survive the rearrangement
      have hlo' : ∀ p q (hp : p < b.length) (hq : q < b.length), p < l → l ≤ q → b[p] ≤ b[q] := by
        intro p q hp hq hpl hlq
        rw [hb.outside p hp (by omega) (.inl hpl)]
        by_cases hqm : q ≤ m
        · obtain ⟨r, hr, hr1, hr2, hr3⟩ := hb.inside q hq hlq hqm
          rw [hr3]; exact hlo p r _ hr hpl hr1
        · rw [hb.outside q hq (by omega) (.inr (by omega))]
          exact hlo p q _ _ hpl hlq
      have hhi' : ∀ p q (hp : p < b.length) (hq : q < b.length), p ≤ m → m < q → b[p] ≤ b[q] := by
        intro p q hp hq hpm hmq
        rw [hb.outside q hq (by omega) (.inr hmq)]
        by_cases hpl : l ≤ p
        · obtain ⟨r, hr, hr1, hr2, hr3⟩ := hb.inside p hp hpl hpm
          rw [hr3]; exact hhi r q hr _ hr2 hmq
        · rw [hb.outside p hp (by omega) (.inl (by omega))]
          exact hhi p q _ _ hpm hmq
      by_cases hjk : j < k
      · by_cases hki : k < i
        · -- finished: between the two parts every cell equals the pivot
          rw [if_pos hjk, if_pos (by omega)]
          have hfin : select k b (i : Int) j fuel = Res.at_ b k := by
            cases fuel with
            | zero => unfold select; rw [if_neg (by omega)]
            | succ f => unfold select; rw [if_neg (by omega)]
          rw [hfin, Res.at_of_lt (by omega : k < b.length)]
          refine ⟨_, rfl, IsKth.perm ?_ hb.perm⟩
          have hx1 : b[k] ≤ a[k] := h7 k (by omega) hlk hki
          have hx2 : a[k] ≤ b[k] := h8 k (by omega) hjk hkm
          apply isKth_of_split (by omega)
          · intro p hp hpk
            by_cases hpl : p < l
            · exact hlo' p k hp _ hpl hlk
            · exact le_trans (h7 p hp (by omega) (by omega)) hx2
          · intro p hp hpk
            by_cases hpm : m < p
            · exact hhi' k p _ hp hkm hpm
            · exact le_trans hx1 (h8 p hp (by omega) (by omega))
        · -- keep the right part
          rw [if_pos hjk, if_neg (by omega)]
          have hlo2 : ∀ p q (hp : p < b.length) (hq : q < b.length), p < i → i ≤ q → b[p] ≤ b[q] := by
            intro p q hp hq hpi hiq
            by_cases hpl : p < l
            · exact hlo' p q hp hq hpl (by omega)
            · have e1 := h7 p hp (by omega) hpi
              by_cases hqm : q ≤ m
              · exact le_trans e1 (h8 q hq (by omega) hqm)
              · exact hhi' p q hp hq (by omega) (by omega)
          obtain ⟨x, hx1, hx2⟩ := ih b i m (by omega) (by omega) hkm (by omega) hlo2 hhi' (by
            intro him
            apply isKth_of_split (by omega)
            · intro p hp hpk; exact hlo2 p k hp (by omega) (by omega) (by omega)
            · intro p hp hpk; exact hhi' k p (by omega) hp (by omega) (by omega))
          exact ⟨x, hx1, hx2.perm hb.perm⟩
      · -- keep the left part
        rw [if_neg hjk, if_pos (by omega)]
        obtain ⟨jn, rfl⟩ := Int.eq_ofNat_of_zero_le (by omega : 0 ≤ j)
        have hhi2 : ∀ p q (hp : p < b.length) (hq : q < b.length), p ≤ jn → jn < q → b[p] ≤ b[q] := by
          intro p q hp hq hpj hjq
          by_cases hqm : m < q
          · exact hhi' p q hp hq (by omega) hqm
          · have e2 := h8 q hq (by omega) (by omega)
            by_cases hpl : p < l
            · exact hlo' p q hp hq hpl (by omega)
            · exact le_trans (h7 p hp (by omega) (by omega)) e2
        obtain ⟨x, hx1, hx2⟩ := ih b l jn (by omega) hlk (by omega) (by omega) hlo' hhi2 (by
            intro him
            apply isKth_of_split (by omega)
            · intro p hp hpk; exact hlo' p k hp (by omega) (by omega) (by omega)
            · intro p hp hpk; exact hhi2 k p (by omega) hp (by omega) (by omega))
        exact ⟨x, hx1, hx2.perm hb.perm⟩
    · rw [if_neg (by omega), Res.at_of_lt (by omega : k < a.length)]
      exact ⟨_, rfl, hdone (by omega)⟩

end Median
end Amazed
