import Mathlib.Order.Lattice
import Mathlib.Order.Basic
import Mathlib.Data.List.Basic
import Verif.Basic

/-!
# Standard library algorithms used by the modelled code

`std::lower_bound` and `std::upper_bound` are modelled by the partition point the C++
standard promises. `lowerBoundBin` is the binary search of libstdc++
(`bits/stl_algobase.h`, `__lower_bound`), proved to compute the same point on every sorted
vector (`lowerBoundBin_eq`).
-/

namespace Amazed

variable {α : Type*} [LinearOrder α]

/-- `std::lower_bound(l.begin(), l.end(), v) - l.begin()`: index of the first element that is
not less than `v`, `l.length` if there is none. -/
def lowerBound (l : List α) (v : α) : Nat := l.findIdx (fun x => decide (v ≤ x))

/-- `std::upper_bound(l.begin(), l.end(), v) - l.begin()`: index of the first element greater
than `v`, `l.length` if there is none. -/
def upperBound (l : List α) (v : α) : Nat := l.findIdx (fun x => decide (v < x))

/-- Binary search loop of libstdc++ `__lower_bound` over `[first, first + len)`.
Reads `l[mid]` through `Res.at_`, so an out-of-bounds read would show as `ub`. -/
def lowerBoundBinGo (l : List α) (v : α) (first len : Nat) : Res Nat :=
  if _h : len = 0 then .ok first
  else
    let half := len / 2
    match Res.at_ l (first + half) with
    | .ok x =>
      if x < v then lowerBoundBinGo l v (first + half + 1) (len - half - 1)
      else lowerBoundBinGo l v first half
    | .throw e => .throw e
    | .ub => .ub
termination_by len
decreasing_by all_goals omega

/-- libstdc++ `std::lower_bound` on a whole vector. -/
def lowerBoundBin (l : List α) (v : α) : Res Nat := lowerBoundBinGo l v 0 l.length

theorem lowerBound_le (l : List α) (v : α) : lowerBound l v ≤ l.length := by
  unfold lowerBound; exact List.findIdx_le_length

theorem upperBound_le (l : List α) (v : α) : upperBound l v ≤ l.length := by
  unfold upperBound; exact List.findIdx_le_length

theorem lt_of_lt_lowerBound {l : List α} {v : α} {i : Nat} (h : i < lowerBound l v)
    (hi : i < l.length) : l[i] < v := by
  have := List.not_of_lt_findIdx h
  simpa using this

theorem le_getElem_lowerBound {l : List α} {v : α} (h : lowerBound l v < l.length) :
    v ≤ l[lowerBound l v] := by
  exact of_decide_eq_true (List.findIdx_getElem (w := h))

theorem le_of_lt_upperBound {l : List α} {v : α} {i : Nat} (h : i < upperBound l v)
    (hi : i < l.length) : l[i] ≤ v := by
  have := List.not_of_lt_findIdx h
  simpa using this

theorem lt_getElem_upperBound {l : List α} {v : α} (h : upperBound l v < l.length) :
    v < l[upperBound l v] := by
  exact of_decide_eq_true (List.findIdx_getElem (w := h))

theorem getElem_le_of_le {l : List α} (hs : l.Pairwise (· ≤ ·)) {i j : Nat} (hij : i ≤ j)
    (hj : j < l.length) : l[i]'(by omega) ≤ l[j] := by
  rcases Nat.lt_or_eq_of_le hij with h | h
  · exact (List.pairwise_iff_getElem.1 hs) i j (by omega) hj h
  · subst h; exact le_refl _

theorem getElem_lt_of_lt {l : List α} (hs : l.Pairwise (· < ·)) {i j : Nat} (hij : i < j)
    (hj : j < l.length) : l[i]'(by omega) < l[j] :=
  (List.pairwise_iff_getElem.1 hs) i j (by omega) hj hij

theorem pairwise_le_of_lt {l : List α} (hs : l.Pairwise (· < ·)) : l.Pairwise (· ≤ ·) :=
  hs.imp (fun h => le_of_lt h)

/-- On a sorted vector an index is at or after the lower bound iff its value is `≥ v`. -/
theorem lowerBound_le_iff {l : List α} (hs : l.Pairwise (· ≤ ·)) {v : α} {i : Nat}
    (hi : i < l.length) : lowerBound l v ≤ i ↔ v ≤ l[i] := by
  constructor
  · intro h
    exact le_trans (le_getElem_lowerBound (by omega)) (getElem_le_of_le hs h hi)
  · intro h
    by_contra hc
    have := lt_of_lt_lowerBound (l := l) (v := v) (by omega : i < lowerBound l v) hi
    exact absurd h (not_le.2 this)

theorem upperBound_le_iff {l : List α} (hs : l.Pairwise (· ≤ ·)) {v : α} {i : Nat}
    (hi : i < l.length) : upperBound l v ≤ i ↔ v < l[i] := by
  constructor
  · intro h
    exact lt_of_lt_of_le (lt_getElem_upperBound (by omega)) (getElem_le_of_le hs h hi)
  · intro h
    by_contra hc
    have := le_of_lt_upperBound (l := l) (v := v) (by omega : i < upperBound l v) hi
    exact absurd h (not_lt.2 this)

theorem lowerBound_eq_of {l : List α} (hs : l.Pairwise (· ≤ ·)) {v : α} {k : Nat}
    (hk : k ≤ l.length) (h1 : ∀ i (hi : i < l.length), i < k → l[i] < v)
    (h2 : ∀ i (hi : i < l.length), k ≤ i → v ≤ l[i]) : lowerBound l v = k := by
  apply le_antisymm
  · rcases Nat.lt_or_eq_of_le hk with h | h
    · exact (lowerBound_le_iff hs h).2 (h2 k h le_rfl)
    · rw [h]; exact lowerBound_le _ _
  · by_contra hc
    have hlt : lowerBound l v < k := by omega
    have := h1 (lowerBound l v) (by omega) hlt
    exact absurd (le_getElem_lowerBound (l := l) (v := v) (by omega)) (not_le.2 this)

theorem lowerBoundBinGo_eq {l : List α} (hs : l.Pairwise (· ≤ ·)) (v : α) (first len : Nat)
    (hb : first + len ≤ l.length) (h1 : ∀ i (hi : i < l.length), i < first → l[i] < v)
    (h2 : ∀ i (hi : i < l.length), first + len ≤ i → v ≤ l[i]) :
    lowerBoundBinGo l v first len = .ok (lowerBound l v) := by
  induction len using Nat.strongRecOn generalizing first with
  | ind len ih =>
    unfold lowerBoundBinGo
    by_cases h : len = 0
    · subst h
      simp only [dif_pos]
      rw [lowerBound_eq_of hs (k := first) (by omega) h1 (by simpa using h2)]
    · simp only [dif_neg h]
      have hm : first + len / 2 < l.length := by omega
      simp only [Res.at_of_lt hm]
      split
      · rename_i hx
        apply ih _ (by omega) _ (by omega)
        · intro i hi hlt
          exact lt_of_le_of_lt (getElem_le_of_le hs (by omega : i ≤ first + len / 2) hm) hx
        · intro i hi hle; exact h2 i hi (by omega)
      · rename_i hx
        apply ih _ (by omega) _ (by omega) h1
        intro i hi hle
        exact le_trans (not_lt.1 hx) (getElem_le_of_le hs hle hi)

/-- The binary search of libstdc++ finds the partition point, without out-of-bounds read. -/
theorem lowerBoundBin_eq {l : List α} (hs : l.Pairwise (· ≤ ·)) (v : α) :
    lowerBoundBin l v = .ok (lowerBound l v) :=
  lowerBoundBinGo_eq hs v 0 l.length (by omega) (by intros; omega) (by intros; omega)

end Amazed
