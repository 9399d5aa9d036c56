import Mathlib.Data.Rat.Defs
import Mathlib.Algebra.Order.Ring.Rat
import Mathlib.Tactic.NormNum
import Verif.Props.MedianLemmas

/-! # C12, C13: the median -/

namespace Amazed
namespace Median
variable {α : Type*} [LinearOrder α]

/-- Specification: `s` is the sorted version of `l`. -/
structure SortedOf (l s : List α) : Prop where
  perm : s.Perm l
  sorted : s.Pairwise (· ≤ ·)

theorem sortedOf_mergeSort (l : List α) : SortedOf l l.mergeSort :=
  ⟨List.mergeSort_perm _ _, pairwise_mergeSort_le l⟩

theorem SortedOf.eq {l s : List α} (h : SortedOf l s) : s = l.mergeSort :=
  List.Perm.eq_of_pairwise (fun _ _ _ _ h1 h2 => le_antisymm h1 h2) h.sorted
    (sortedOf_mergeSort l).sorted (h.perm.trans (sortedOf_mergeSort l).perm.symm)

theorem SortedOf.length_eq {l s : List α} (h : SortedOf l s) : s.length = l.length := h.perm.length_eq

theorem network_sorted (pairs : List (Nat × Nat)) (n m : Nat) (hm : m < n)
    (hne : ∀ ij ∈ pairs, ij.1 ≠ ij.2) (hgood : GoodOnBool pairs n m) (l : List α)
    (hl : l.length = n) (s : List α) (hs : SortedOf l s) (h : m < s.length) :
    network pairs m l = .ok s[m] := by
  obtain ⟨x, hx, hk⟩ := network_correct pairs n m hm hne hgood l hl
  have := hk.sort
  rw [← hs.eq, List.getElem?_eq_getElem h] at this
  rw [hx, Option.some.inj this]

/-- **C12** On 3, 5, 7 or 9 values the median is the middle value of the sorted input, whatever the
order of the input and whatever its duplicates. -/
theorem C12_small_odd_median [Field α] (l s : List α) (hs : SortedOf l s)
    (hn : l.length = 3 ∨ l.length = 5 ∨ l.length = 7 ∨ l.length = 9) :
    ∃ h : l.length / 2 < s.length, find l = .ok s[l.length / 2] := by
  have hlen := hs.length_eq
  refine ⟨by omega, ?_⟩
  rcases hn with h | h | h | h
  · have := network_sorted pairs3 3 1 (by omega) (by decide) (by decide +kernel) l h s hs (by omega)
    simp only [find, h]; exact this
  · have := network_sorted pairs5 5 2 (by omega) (by decide) (by decide +kernel) l h s hs (by omega)
    simp only [find, h]; exact this
  · have := network_sorted pairs7 7 3 (by omega) (by decide) (by decide +kernel) l h s hs (by omega)
    simp only [find, h]; exact this
  · have := network_sorted pairs9 9 4 (by omega) (by decide) (by decide +kernel) l h s hs (by omega)
    simp only [find, h]; exact this

/-- The two middle values of an input are `sorted[(n-1)/2]` and `sorted[n/2]`; they coincide for an odd `n`.

**C13** (selection): on any non-empty input `FastFind` ends, stays in bounds and returns the lower middle
value of the sorted input. -/
theorem C13_fastFind (l s : List α) (hs : SortedOf l s) (hne : l ≠ []) :
    ∃ h : (l.length - 1) / 2 < s.length, fastFind l = .ok s[(l.length - 1) / 2] := by
  have hlen := hs.length_eq
  have hpos : 0 < l.length := List.length_pos_iff.2 hne
  refine ⟨by omega, ?_⟩
  obtain ⟨x, hx, hk⟩ := select_spec ((l.length - 1) / 2) l.length l 0 (l.length - 1) (by omega)
    (by omega) (by omega) (by omega) (by intros; omega) (by intros; omega)
  have h2 := hk.sort
  rw [← hs.eq, List.getElem?_eq_getElem (by omega)] at h2
  rw [Option.some.inj h2, ← hx]
  unfold fastFind
  simp only
  have hkk : (if l.length % 2 = 1 then ((l.length / 2 : Nat) : Int) else ((l.length / 2 : Nat) : Int) - 1)
      = (((l.length - 1) / 2 : Nat) : Int) := by
    split <;> omega
  rw [hkk, if_neg (by omega), Int.toNat_natCast]
  congr 1
  omega

/-- **C13** (sorting): on any non-empty input `BeersFind` returns the middle value, or for an even size
the mean of the two middle values. -/
theorem C13_beersFind [Field α] (l s : List α) (hs : SortedOf l s) (hne : l ≠ []) :
    ∃ (h1 : (l.length - 1) / 2 < s.length) (h2 : l.length / 2 < s.length),
      beersFind l = if l.length % 2 = 1 then .ok s[l.length / 2]
        else .ok ((s[(l.length - 1) / 2] + s[l.length / 2]) / 2) := by
  have hlen := hs.length_eq
  have hpos : 0 < l.length := List.length_pos_iff.2 hne
  refine ⟨by omega, by omega, ?_⟩
  unfold beersFind
  simp only [← hs.eq]
  by_cases h : l.length % 2 = 1
  · rw [if_neg (by omega), if_pos h, Res.at_of_lt (by omega)]
  · rw [if_pos (by omega), if_neg h, if_neg (by omega)]
    have h1 : l.length / 2 - 1 = (l.length - 1) / 2 := by omega
    simp only [h1]
    rw [Res.at_of_lt (by omega), Res.at_of_lt (by omega)]
    rfl

/-- **C13** What `Find` returns for every non-empty input: the middle value for an odd size (at any size),
the mean of the two middle values for an even size up to 1000, the lower of them beyond. In particular
it never reads outside its data and always ends. -/
theorem C13_find [Field α] (l s : List α) (hs : SortedOf l s) (hne : l ≠ []) :
    ∃ (h1 : (l.length - 1) / 2 < s.length) (h2 : l.length / 2 < s.length),
      find l = if l.length % 2 = 1 then .ok s[l.length / 2]
        else if l.length ≤ 1000 then .ok ((s[(l.length - 1) / 2] + s[l.length / 2]) / 2)
        else .ok s[(l.length - 1) / 2] := by
  have hlen := hs.length_eq
  have hpos : 0 < l.length := List.length_pos_iff.2 hne
  refine ⟨by omega, by omega, ?_⟩
  by_cases h1 : l.length = 1
  · have hp := hs.perm
    obtain ⟨x, rfl⟩ := List.length_eq_one_iff.1 h1
    have : s = [x] := by simpa using hp
    subst this
    simp [find, Res.at_]
  by_cases hsm : l.length = 3 ∨ l.length = 5 ∨ l.length = 7 ∨ l.length = 9
  · obtain ⟨_, h⟩ := C12_small_odd_median l s hs hsm
    rw [h, if_pos (by omega)]
  · have hf : find l = if l.length > fastThreshold then fastFind l else beersFind l := by
      unfold find
      split <;> first | omega | rfl
    rw [hf]
    unfold fastThreshold
    by_cases hbig : l.length > 1000
    · rw [if_pos hbig]
      obtain ⟨_, h⟩ := C13_fastFind l s hs hne
      rw [h]
      by_cases ho : l.length % 2 = 1
      · rw [if_pos ho]
        have : (l.length - 1) / 2 = l.length / 2 := by omega
        simp only [this]
      · rw [if_neg ho, if_neg (by omega)]
    · rw [if_neg hbig]
      obtain ⟨_, _, h⟩ := C13_beersFind l s hs hne
      rw [h]
      by_cases ho : l.length % 2 = 1
      · rw [if_pos ho, if_pos ho]
      · rw [if_neg ho, if_neg ho, if_pos (by omega)]

/-- The empty input is not guarded: `Find` reads `*begin` of an empty vector. -/
theorem C13_find_empty_is_ub [Field α] : find ([] : List α) = .ub := rfl

/-- The median does not depend on the order of the samples. -/
theorem C13_find_perm [Field α] (l l' : List α) (h : l.Perm l') : find l = find l' := by
  by_cases hne : l = []
  · subst hne; rw [List.Perm.nil_eq h]
  · have hne' : l' ≠ [] := by rintro rfl; exact hne h.eq_nil
    obtain ⟨_, _, h1⟩ := C13_find l l.mergeSort (sortedOf_mergeSort l) hne
    obtain ⟨_, _, h2⟩ := C13_find l' l.mergeSort
      ⟨(sortedOf_mergeSort l).perm.trans h, (sortedOf_mergeSort l).sorted⟩ hne'
    rw [h1, h2]
    simp only [h.length_eq]

example : SortedOf [(5 : ℚ), 1, 4, 1, 3] [1, 1, 3, 4, 5] := ⟨by decide, by decide⟩
example : find [(5 : ℚ), 1, 4, 1, 3] = .ok 3 := by decide +kernel
example : fastFind [(5 : ℚ), 1, 4, 2] = .ok 2 := by decide +kernel
example : SortedOf [(5 : ℚ), 1, 4, 2] [1, 2, 4, 5] ∧ [(5 : ℚ), 1, 4, 2] ≠ [] := ⟨⟨by decide, by decide⟩, by decide⟩

end Median
end Amazed
