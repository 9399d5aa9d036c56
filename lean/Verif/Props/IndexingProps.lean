import Verif.Model.Indexing
import Mathlib.Tactic.Common
import Mathlib.Algebra.Order.Ring.Int

/-! # C08: index lookups -/

namespace Amazed
variable {α : Type*} [LinearOrder α]

@[simp] theorem Res.map_ok {β γ} (f : β → γ) (a : β) : (f <$> Res.ok a) = Res.ok (f a) := rfl
@[simp] theorem Res.map_ub {β γ} (f : β → γ) : (f <$> (Res.ub : Res β)) = Res.ub := rfl

/-- C08. `getIndex` returns the first index holding exactly the value, and throws
`INTERNAL_ERROR` iff the value is absent (any vector, sorted or not). -/
theorem C08_getIndex (l : List α) (z : α) :
    (∀ i, getIndex l z = .ok i → ∃ h : i < l.length, l[i] = z ∧ ∀ k (hk : k < i), l[k] ≠ z) ∧
    (getIndex l z = .throw .INTERNAL_ERROR ↔ z ∉ l) ∧ getIndex l z ≠ .ub := by
  unfold getIndex
  by_cases hm : z ∈ l
  · have hlt : l.findIdx (fun x => x == z) < l.length :=
      List.findIdx_lt_length_of_exists ⟨z, hm, by simp⟩
    have hne : l.findIdx (fun x => x == z) ≠ l.length := by omega
    simp only [hne, if_false]
    refine ⟨?_, by simp [hm], by simp⟩
    intro i hi
    simp only [Res.ok.injEq] at hi
    subst hi
    refine ⟨hlt, ?_, ?_⟩
    · have := List.findIdx_getElem (xs := l) (p := fun x => x == z) (w := hlt)
      simpa using this
    · intro k hk
      have := List.not_of_lt_findIdx hk
      simpa using this
  · have : l.findIdx (fun x => x == z) = l.length := by
      apply List.findIdx_eq_length_of_false
      intro x hx
      simp only [beq_eq_false_iff_ne]
      rintro rfl; exact hm hx
    simp [this, hm]

/-- C08. On a sorted non-empty vector `getClosestLowerIndex` reports not found iff every value is
greater; otherwise the index returned holds the greatest value `≤ v`. With distinct values it is the
greatest such index. -/
theorem C08_closestLower (l : List α) (v : α) (hs : l.Pairwise (· ≤ ·)) (hne : l ≠ []) :
    (getClosestLowerIndex l v = .ok none ↔ ∀ x ∈ l, v < x) ∧
    (∀ i, getClosestLowerIndex l v = .ok (some i) → ∃ h : i < l.length, l[i] ≤ v ∧
      (∀ x ∈ l, x ≤ v → x ≤ l[i]) ∧
      (l.Pairwise (· < ·) → ∀ k (hk : k < l.length), l[k] ≤ v ↔ k ≤ i)) ∧
    (∃ o, getClosestLowerIndex l v = .ok o) := by
  have hn : 0 < l.length := List.length_pos_iff.2 hne
  unfold getClosestLowerIndex
  rw [List.getElem?_eq_getElem hn]
  simp only []
  by_cases hv : v < l[0]
  · rw [if_pos hv]
    refine ⟨by
      simp only [true_iff]
      intro x hx
      obtain ⟨k, hk, rfl⟩ := List.getElem_of_mem hx
      exact lt_of_lt_of_le hv (getElem_le_of_le hs (Nat.zero_le _) hk), by simp, by simp⟩
  · rw [if_neg hv]
    have hnot : ¬ ∀ x ∈ l, v < x := fun h => hv (h _ (List.getElem_mem hn))
    have hlb := fun k (hk : k < l.length) => lowerBound_le_iff hs (v := v) hk
    -- case where the result is the index before the lower bound
    have hdec : ∀ _ : (∀ h : lowerBound l v < l.length, v < l[lowerBound l v]),
        lowerBound l v ≠ 0 ∧ ∃ h : lowerBound l v - 1 < l.length, l[lowerBound l v - 1] ≤ v ∧
          (∀ x ∈ l, x ≤ v → x ≤ l[lowerBound l v - 1]) ∧
          (l.Pairwise (· < ·) → ∀ k (hk : k < l.length), l[k] ≤ v ↔ k ≤ lowerBound l v - 1) := by
      intro hgt
      have hle := lowerBound_le l v
      have h0 : lowerBound l v ≠ 0 := by
        intro h0
        exact hv (by have := hgt (by omega); simpa only [h0] using this)
      have hb : ∀ k (hk : k < l.length), l[k] ≤ v → k ≤ lowerBound l v - 1 := by
        intro k hk hkv
        by_contra hc
        have h1 : lowerBound l v ≤ k := by omega
        have h2 := getElem_le_of_le hs h1 hk
        exact absurd (lt_of_lt_of_le (hgt (by omega)) (le_trans h2 hkv)) (lt_irrefl _)
      refine ⟨h0, by omega, le_of_lt (lt_of_lt_lowerBound (by omega) _), ?_, ?_⟩
      · intro x hx hxv
        obtain ⟨k, hk, rfl⟩ := List.getElem_of_mem hx
        exact getElem_le_of_le hs (hb k hk hxv) _
      · intro _ k hk
        refine ⟨hb k hk, fun hk2 => le_of_lt (lt_of_lt_lowerBound (by omega) _)⟩
    by_cases hend : lowerBound l v < l.length
    · rw [List.getElem?_eq_getElem hend]
      have hge := le_getElem_lowerBound hend
      by_cases heq : l[lowerBound l v] = v
      · simp only [heq, ne_eq, not_true, if_false]
        refine ⟨by simp [hnot], ?_, by simp⟩
        intro i hi
        simp only [Res.ok.injEq, Option.some.injEq] at hi
        subst hi
        refine ⟨hend, le_of_eq heq, fun x _ hx => le_trans hx (le_of_eq heq.symm), ?_⟩
        intro hst k hk
        constructor
        · intro hkv
          by_contra hc
          have := getElem_lt_of_lt hst (by omega : lowerBound l v < k) hk
          rw [heq] at this
          exact absurd (lt_of_lt_of_le this hkv) (lt_irrefl _)
        · intro hkv
          exact le_trans (getElem_le_of_le hs hkv hend) (le_of_eq heq)
      · obtain ⟨h0, h⟩ := hdec (fun _ => lt_of_le_of_ne hge (Ne.symm heq))
        simp only [ne_eq, heq, not_false_eq_true, if_true, Range.decIdx, h0, if_false, Res.map_ok]
        refine ⟨by simp [hnot], ?_, by simp⟩
        intro i hi
        simp only [Res.ok.injEq, Option.some.injEq] at hi
        subst hi; exact h
    · obtain ⟨h0, h⟩ := hdec (fun hc => absurd hc hend)
      rw [List.getElem?_eq_none (by omega)]
      simp only [Range.decIdx, h0, if_false, Res.map_ok]
      refine ⟨by simp [hnot], ?_, by simp⟩
      intro i hi
      simp only [Res.ok.injEq, Option.some.injEq] at hi
      subst hi; exact h

/-- C08. `getClosestUpperIndex` on a sorted non-empty vector: not found iff every value is smaller,
else the first index whose value is `≥ v`. -/
theorem C08_closestUpper (l : List α) (v : α) (hs : l.Pairwise (· ≤ ·)) (hne : l ≠ []) :
    (getClosestUpperIndex l v = .ok none ↔ ∀ x ∈ l, x < v) ∧
    (∀ i, getClosestUpperIndex l v = .ok (some i) → ∃ h : i < l.length, v ≤ l[i] ∧
      ∀ k (hk : k < l.length), v ≤ l[k] ↔ i ≤ k) ∧
    (∃ o, getClosestUpperIndex l v = .ok o) := by
  have hn : 0 < l.length := List.length_pos_iff.2 hne
  unfold getClosestUpperIndex
  rw [List.getElem?_eq_getElem (by omega : l.length - 1 < l.length)]
  simp only []
  by_cases hv : v > l[l.length - 1]
  · rw [if_pos hv]
    refine ⟨by
      simp only [true_iff]
      intro x hx
      obtain ⟨k, hk, rfl⟩ := List.getElem_of_mem hx
      exact lt_of_le_of_lt (getElem_le_of_le hs (by omega) (by omega)) hv, by simp, by simp⟩
  · rw [if_neg hv]
    have hnot : ¬ ∀ x ∈ l, x < v := fun h => hv (h _ (List.getElem_mem _))
    refine ⟨by simp [hnot], ?_, by simp⟩
    intro i hi
    simp only [Res.ok.injEq, Option.some.injEq] at hi
    subst hi
    have h1 := (lowerBound_le_iff hs (v := v) (by omega : l.length - 1 < l.length)).2 (not_lt.1 hv)
    have h2 : lowerBound l v < l.length := by omega
    exact ⟨h2, le_getElem_lowerBound h2, fun k hk => (lowerBound_le_iff hs hk).symm⟩

/-- C08. `getCloserIndex` on a sorted non-empty vector returns an in-bounds index whose value
minimises the distance to `v`. -/
theorem C08_closer [AddCommGroup α] [IsOrderedAddMonoid α] (l : List α) (v : α)
    (hs : l.Pairwise (· ≤ ·)) (hne : l ≠ []) :
    ∃ i, getCloserIndex l v = .ok i ∧ ∃ h : i < l.length, ∀ x ∈ l, |l[i] - v| ≤ |x - v| := by
  have hn : 0 < l.length := List.length_pos_iff.2 hne
  have hle := lowerBound_le l v
  -- distance is monotone on each side of `v`
  have right : ∀ a b : α, v ≤ a → a ≤ b → |a - v| ≤ |b - v| := by
    intro a b h1 h2
    rw [abs_of_nonneg (sub_nonneg.2 h1), abs_of_nonneg (sub_nonneg.2 (le_trans h1 h2))]
    exact sub_le_sub_right h2 v
  have left : ∀ a b : α, a ≤ v → b ≤ a → |a - v| ≤ |b - v| := by
    intro a b h1 h2
    rw [abs_of_nonpos (sub_nonpos.2 h1), abs_of_nonpos (sub_nonpos.2 (le_trans h2 h1))]
    exact neg_le_neg (sub_le_sub_right h2 v)
  unfold getCloserIndex
  by_cases hend : lowerBound l v < l.length
  · simp only [List.getElem?_eq_getElem hend]
    have hge := le_getElem_lowerBound hend
    have hright : ∀ k (hk : k < l.length), lowerBound l v ≤ k →
        |l[lowerBound l v] - v| ≤ |l[k] - v| := fun k hk h => right _ _ hge (getElem_le_of_le hs h hk)
    by_cases h0 : lowerBound l v = 0
    · simp only [h0, ne_eq, not_true, if_false]
      refine ⟨0, rfl, hn, fun x hx => ?_⟩
      obtain ⟨k, hk, rfl⟩ := List.getElem_of_mem hx
      have := hright k hk (by omega)
      simpa only [h0] using this
    · have hl1 : lowerBound l v - 1 < l.length := by omega
      simp only [h0, ne_eq, not_false_eq_true, if_true, List.getElem?_eq_getElem hl1]
      have hlt : l[lowerBound l v - 1] ≤ v := le_of_lt (lt_of_lt_lowerBound (by omega) hl1)
      have hleft : ∀ k (hk : k < l.length), k ≤ lowerBound l v - 1 →
          |l[lowerBound l v - 1] - v| ≤ |l[k] - v| :=
        fun k hk h => left _ _ hlt (getElem_le_of_le hs h hl1)
      by_cases hcmp : |l[lowerBound l v] - v| > |l[lowerBound l v - 1] - v|
      · rw [if_pos hcmp]
        refine ⟨_, rfl, hl1, fun x hx => ?_⟩
        obtain ⟨k, hk, rfl⟩ := List.getElem_of_mem hx
        by_cases hk2 : k ≤ lowerBound l v - 1
        · exact hleft k hk hk2
        · exact le_trans (le_of_lt hcmp) (hright k hk (by omega))
      · rw [if_neg hcmp]
        refine ⟨_, rfl, hend, fun x hx => ?_⟩
        obtain ⟨k, hk, rfl⟩ := List.getElem_of_mem hx
        by_cases hk2 : k ≤ lowerBound l v - 1
        · exact le_trans (not_lt.1 hcmp) (hleft k hk hk2)
        · exact hright k hk (by omega)
  · have heq : lowerBound l v = l.length := by omega
    simp only [heq, List.getElem?_eq_none (le_refl _)]
    refine ⟨l.length - 1, by simp [Range.decIdx]; omega, by omega, fun x hx => ?_⟩
    obtain ⟨k, hk, rfl⟩ := List.getElem_of_mem hx
    exact left _ _ (le_of_lt (lt_of_lt_lowerBound (by omega) _))
      (getElem_le_of_le hs (by omega) (by omega))

/-- C08: all sorted lookups need a non-empty vector; on an empty one they read `front()`/`back()` or
step before `begin()`. -/
theorem C08_empty_ub [AddCommGroup α] (v : α) : getClosestLowerIndex ([] : List α) v = .ub ∧
    getClosestUpperIndex ([] : List α) v = .ub ∧ getCloserIndex ([] : List α) v = .ub := by
  refine ⟨by simp [getClosestLowerIndex], by simp [getClosestUpperIndex], ?_⟩
  simp [getCloserIndex, lowerBound, Range.decIdx]

example : ([1, 3, 3, 8] : List Int).Pairwise (· ≤ ·) ∧ getCloserIndex ([1, 3, 3, 8] : List Int) 6 = .ok 3 ∧
    getCloserIndex ([1, 3, 3, 8] : List Int) 5 = .ok 2 ∧
    getClosestLowerIndex ([1, 3, 3, 8] : List Int) 7 = .ok (some 2) ∧
    getClosestLowerIndex ([1, 3, 3, 8] : List Int) 0 = .ok none ∧
    getClosestUpperIndex ([1, 3, 3, 8] : List Int) 4 = .ok (some 3) ∧
    getIndex ([1, 3, 3, 8] : List Int) 3 = .ok 1 := by decide

end Amazed
