import Verif.Model.Range
import Mathlib.Tactic.Common

/-! # C01-C04: ranges and index lookups on sorted vectors -/

namespace Amazed
variable {α : Type*} [LinearOrder α]

/-! ## Specification -/

/-- A value lies in the closed range. -/
def Range.Mem (r : Range α) (x : α) : Prop := r.b ≤ x ∧ x ≤ r.e

/-- The range is not inverted. -/
def Range.Valid (r : Range α) : Prop := r.b ≤ r.e

instance (r : Range α) (x : α) : Decidable (r.Mem x) := by unfold Range.Mem; infer_instance
instance (r : Range α) : Decidable r.Valid := by unfold Range.Valid; infer_instance

/-! ## C01 -/

/-- C01. `Intersect` on two valid ranges returns `true` iff a common value exists; then the output
holds exactly the common values (and is itself valid); on `false` the output is untouched. -/
theorem C01_intersect (r s out : Range α) (hr : r.Valid) (hs : s.Valid) :
    (Range.hasIntersection r s = true ↔ ∃ x, r.Mem x ∧ s.Mem x) ∧
    ((Range.intersect r s out).1 = Range.hasIntersection r s) ∧
    ((Range.intersect r s out).1 = true →
      (Range.intersect r s out).2.Valid ∧
      ∀ x, (Range.intersect r s out).2.Mem x ↔ (r.Mem x ∧ s.Mem x)) ∧
    ((Range.intersect r s out).1 = false → (Range.intersect r s out).2 = out) := by
  unfold Range.Valid at *
  have key : Range.hasIntersection r s = true ↔ ∃ x, r.Mem x ∧ s.Mem x := by
    simp only [Range.hasIntersection, Range.Mem, decide_eq_true_eq]
    constructor
    · intro h
      simp only [max_le_iff, le_min_iff] at h
      exact ⟨max r.b s.b, by simp [*]⟩
    · rintro ⟨x, ⟨h1, h2⟩, h3, h4⟩
      exact le_trans (max_le h1 h3) (le_min h2 h4)
  refine ⟨key, ?_, ?_, ?_⟩
  · unfold Range.intersect; split <;> simp_all
  · unfold Range.intersect
    split
    · rename_i h
      intro _
      refine ⟨by simpa [Range.hasIntersection] using h, fun x => ?_⟩
      simp only [Range.Mem, max_le_iff, le_min_iff]; tauto
    · simp
  · unfold Range.intersect; split <;> simp_all

/-- **C01, clamp.** The clamped value lies in the range, is the value itself when it lies in the range, and otherwise
is the end of the range on its side: no point of the range lies strictly between the two. -/
theorem C01_clamp (r : Range α) (hr : r.Valid) (v : α) :
    r.Mem (r.clamp v) ∧ (r.Mem v → r.clamp v = v) ∧
    (∀ x, r.Mem x → (v ≤ r.clamp v → r.clamp v ≤ x ∨ r.clamp v = v) ∧ (r.clamp v ≤ v → x ≤ r.clamp v ∨ r.clamp v = v)) := by
  unfold Range.Valid at hr
  unfold Range.clamp Range.Mem
  by_cases h1 : v < r.b
  · rw [if_pos h1]
    exact ⟨⟨le_rfl, hr⟩, fun h => absurd h.1 (not_le.2 h1), fun x hx => ⟨fun _ => Or.inl hx.1, fun h => absurd h (not_le.2 h1)⟩⟩
  · rw [if_neg h1]
    by_cases h2 : r.e < v
    · rw [if_pos h2]
      exact ⟨⟨hr, le_rfl⟩, fun h => absurd h.2 (not_le.2 h2), fun x hx => ⟨fun h => absurd h (not_le.2 h2), fun _ => Or.inl hx.2⟩⟩
    · rw [if_neg h2]
      exact ⟨⟨not_lt.1 h1, not_lt.1 h2⟩, fun _ => rfl, fun x _ => ⟨fun _ => Or.inr rfl, fun _ => Or.inr rfl⟩⟩

example : (⟨2, 5⟩ : Range Int).clamp 7 = 5 ∧ (⟨2, 5⟩ : Range Int).clamp 0 = 2 ∧ (⟨2, 5⟩ : Range Int).clamp 3 = 3 := by decide

/-- C01, in-place form: `IntersectWith` is commutative in the set it computes and intersecting
again with the same range changes nothing. -/
theorem C01_intersect_idem (r s : Range α) :
    Range.intersect (Range.intersect r s r).2 s (Range.intersect r s r).2 =
      ((Range.intersect r s r).1, (Range.intersect r s r).2) := by
  unfold Range.intersect
  by_cases h : Range.hasIntersection r s = true
  · have h2 : Range.hasIntersection (⟨max r.b s.b, min r.e s.e⟩ : Range α) s = true := by
      simp only [Range.hasIntersection, decide_eq_true_eq, max_le_iff, le_min_iff] at *
      tauto
    simp [h, h2]
  · simp [h]

example : (Range.intersect (⟨0, 5⟩ : Range Int) ⟨5, 9⟩ ⟨0, 0⟩) = (true, ⟨5, 5⟩) ∧
    (⟨0, 5⟩ : Range Int).Valid ∧ (⟨5, 9⟩ : Range Int).Valid := by decide

/-! ## C02 -/

/-- C02 for two ranges: when they intersect the union covers exactly the values of both;
otherwise the output is untouched. -/
theorem C02_union (r s out : Range α) (hr : r.Valid) (hs : s.Valid) :
    ((Range.getUnion r s out).1 = true ↔ ∃ x, r.Mem x ∧ s.Mem x) ∧
    ((Range.getUnion r s out).1 = true →
      ∀ x, (Range.getUnion r s out).2.Mem x ↔ (r.Mem x ∨ s.Mem x)) ∧
    ((Range.getUnion r s out).1 = false → (Range.getUnion r s out).2 = out) := by
  have key := (C01_intersect r s out hr hs).1
  unfold Range.Valid at *
  refine ⟨?_, ?_, ?_⟩
  · rw [← key]; unfold Range.getUnion; split <;> simp_all
  · unfold Range.getUnion
    split
    · rename_i h
      intro _ x
      simp only [Range.hasIntersection, decide_eq_true_eq, max_le_iff, le_min_iff] at h
      obtain ⟨⟨_, h1⟩, h2, _⟩ := h
      simp only [Range.Mem, min_le_iff, le_max_iff]
      constructor
      · rintro ⟨h3 | h3, h4 | h4⟩
        · exact .inl ⟨h3, h4⟩
        · rcases le_total x r.e with h5 | h5
          · exact .inl ⟨h3, h5⟩
          · exact .inr ⟨le_trans h1 h5, h4⟩
        · rcases le_total x s.e with h5 | h5
          · exact .inr ⟨h3, h5⟩
          · exact .inl ⟨le_trans h2 h5, h4⟩
        · exact .inr ⟨h3, h4⟩
      · tauto
    · simp
  · unfold Range.getUnion; split <;> simp_all

theorem Range.joinGo_spec (cur : Range α) (rs : List (Range α)) (hc : cur.Valid)
    (hv : ∀ r ∈ rs, r.Valid) (hs : (cur :: rs).Pairwise (fun a b => a.b ≤ b.b)) :
    (∀ x, (∃ r ∈ joinGo cur rs, r.Mem x) ↔ (cur.Mem x ∨ ∃ r ∈ rs, r.Mem x)) ∧
    (joinGo cur rs).Pairwise (fun a b => a.e < b.b) ∧
    (∀ r ∈ joinGo cur rs, r.Valid ∧ cur.b ≤ r.b) := by
  induction rs generalizing cur with
  | nil => simp [joinGo, hc]
  | cons r rs ih =>
    have hvr := hv r (by simp)
    have hcb : cur.b ≤ r.b := by
      rw [List.pairwise_cons] at hs; exact hs.1 r (by simp)
    unfold joinGo
    by_cases h : cur.e ≥ r.b
    · rw [if_pos h]
      have hs' : ((⟨cur.b, max cur.e r.e⟩ : Range α) :: rs).Pairwise (fun a b => a.b ≤ b.b) := by
        rw [List.pairwise_cons] at hs ⊢
        exact ⟨fun a ha => hs.1 a (by simp [ha]), (List.pairwise_cons.1 hs.2).2⟩
      obtain ⟨h1, h2, h3⟩ := ih ⟨cur.b, max cur.e r.e⟩
        (by unfold Range.Valid at *; exact le_trans hc (le_max_left _ _))
        (fun a ha => hv a (by simp [ha])) hs'
      refine ⟨fun x => ?_, h2, h3⟩
      rw [h1]
      have : (⟨cur.b, max cur.e r.e⟩ : Range α).Mem x ↔ cur.Mem x ∨ r.Mem x := by
        simp only [Range.Mem, le_max_iff]
        constructor
        · rintro ⟨h4, h5 | h5⟩
          · exact .inl ⟨h4, h5⟩
          · rcases le_total x cur.e with h6 | h6
            · exact .inl ⟨h4, h6⟩
            · exact .inr ⟨le_trans h h6, h5⟩
        · rintro (⟨h4, h5⟩ | ⟨h4, h5⟩)
          · exact ⟨h4, .inl h5⟩
          · exact ⟨le_trans hcb h4, .inr h5⟩
      rw [this]
      simp only [List.mem_cons, exists_eq_or_imp]
      tauto
    · rw [if_neg h]
      obtain ⟨h1, h2, h3⟩ := ih r hvr (fun a ha => hv a (by simp [ha]))
        (List.pairwise_cons.1 hs).2
      refine ⟨fun x => ?_, ?_, ?_⟩
      · simp only [List.mem_cons, exists_eq_or_imp]
        rw [h1]
      · rw [List.pairwise_cons]
        exact ⟨fun a ha => lt_of_lt_of_le (not_le.1 h) (h3 a ha).2, h2⟩
      · intro a ha
        rw [List.mem_cons] at ha
        rcases ha with rfl | ha
        · exact ⟨hc, le_rfl⟩
        · exact ⟨(h3 a ha).1, le_trans hcb (h3 a ha).2⟩

theorem Range.notLt_trans (a b c : Range α) (h1 : (!(lt b a)) = true) (h2 : (!(lt c b)) = true) :
    (!(lt c a)) = true := by
  unfold lt at *
  grind

theorem Range.notLt_total (a b : Range α) : (!(lt b a) || !(lt a b)) = true := by
  unfold lt; grind

/-- C02. Joining any non-empty list of valid ranges gives ranges covering exactly the same values,
valid, in increasing order and with a strict gap between any two. -/
theorem C02_join (rs : List (Range α)) (hne : rs ≠ []) (hv : ∀ r ∈ rs, r.Valid) :
    ∃ out, Range.joinIntersections rs = .ok out ∧
      (∀ x, (∃ r ∈ out, r.Mem x) ↔ ∃ r ∈ rs, r.Mem x) ∧
      out.Pairwise (fun a b => a.e < b.b) ∧ (∀ r ∈ out, r.Valid) := by
  match rs, hne with
  | [r], _ => exact ⟨[r], by simp [Range.joinIntersections], by simp, by simp, hv⟩
  | r1 :: r2 :: rs', _ =>
    have hperm := List.mergeSort_perm (r1 :: r2 :: rs') (fun r s => !(Range.lt s r))
    have hsort := List.pairwise_mergeSort
      (le := fun r s => !(Range.lt (α := α) s r)) (fun a b c => Range.notLt_trans a b c)
      (fun a b => Range.notLt_total a b) (r1 :: r2 :: rs')
    simp only [Range.joinIntersections]
    generalize hm : (r1 :: r2 :: rs').mergeSort (fun r s => !(Range.lt s r)) = m at *
    cases m with
    | nil => have := hperm.length_eq; simp at this
    | cons c cs =>
      have hmem : ∀ a, a ∈ c :: cs ↔ a ∈ r1 :: r2 :: rs' := fun a => hperm.mem_iff
      have hs : (c :: cs).Pairwise (fun a b => a.b ≤ b.b) := by
        refine hsort.imp ?_
        intro a b hab
        unfold Range.lt at hab
        grind
      obtain ⟨h1, h2, h3⟩ := Range.joinGo_spec c cs
        (hv c ((hmem c).1 (by simp))) (fun a ha => hv a ((hmem a).1 (by simp [ha]))) hs
      refine ⟨_, rfl, fun x => ?_, h2, fun r hr => (h3 r hr).1⟩
      rw [h1]
      constructor
      · rintro (h | ⟨r, hr, h⟩)
        · exact ⟨c, (hmem c).1 (by simp), h⟩
        · exact ⟨r, (hmem r).1 (by simp [hr]), h⟩
      · rintro ⟨r, hr, h⟩
        have := (hmem r).2 hr
        rw [List.mem_cons] at this
        rcases this with rfl | h'
        · exact .inl h
        · exact .inr ⟨r, h', h⟩

/-- C02, error branch: the only failure is `EMPTY_LIST`, exactly on the empty list. -/
theorem C02_join_errors (rs : List (Range α)) :
    (Range.joinIntersections rs = .throw .EMPTY_LIST ↔ rs = []) ∧
    Range.joinIntersections rs ≠ .ub := by
  match rs with
  | [] => simp [Range.joinIntersections]
  | [r] => simp [Range.joinIntersections]
  | r1 :: r2 :: rs' =>
    have hperm := List.mergeSort_perm (r1 :: r2 :: rs') (fun r s => !(Range.lt s r))
    simp only [Range.joinIntersections]
    generalize hm : (r1 :: r2 :: rs').mergeSort (fun r s => !(Range.lt s r)) = m at *
    cases m with
    | nil => have := hperm.length_eq; simp at this
    | cons c cs => simp

example : (∀ r ∈ ([⟨4, 6⟩, ⟨1, 2⟩, ⟨2, 3⟩, ⟨5, 9⟩] : List (Range Int)), r.Valid) ∧
    Range.joinGo (⟨1, 2⟩ : Range Int) [⟨2, 3⟩, ⟨4, 6⟩, ⟨5, 9⟩] = [⟨1, 3⟩, ⟨4, 9⟩] := by
  decide

/-! ## C03 -/

/-- The outcome of `getClosedIntervalIndices` on every sorted vector, in one statement
(used for the property theorems below). -/
theorem Range.closedIdx_cases (r : Range α) (l : List α) (hs : l.Pairwise (· ≤ ·)) :
    (l = [] ∧ closedIdx r l = .throw .EMPTY_LIST) ∨
    (l ≠ [] ∧ (∀ x ∈ l, ¬ r.Mem x) ∧ (closedIdx r l = .throw .CRANGE_VECTBORDERS_OUTSIDERANGE ∨
        closedIdx r l = .throw .CRANGE_NO_INTERSECTION)) ∨
    (∃ i j, closedIdx r l = .ok (i, j) ∧ i ≤ j ∧ j < l.length ∧ i = lowerBound l r.b ∧
      (∀ k (hk : k < l.length), i ≤ k → k ≤ j → r.Mem l[k]) ∧
      (∀ k (hk : k < l.length), r.Mem l[k] → i ≤ k ∧ (k ≤ j ∨ l[k] = r.e)) ∧
      (∀ k (hk : k < l.length), l[k] = r.e → j ≤ k)) := by
  rcases Nat.eq_zero_or_pos l.length with hz | hL0
  · left
    have := List.eq_nil_of_length_eq_zero hz
    subst this; simp [closedIdx]
  · right
    rename' l => L
    have hLn : L ≠ [] := List.ne_nil_of_length_pos hL0
    have hmem : ∀ {P : α → Prop}, (∀ k (hk : k < L.length), P L[k]) → ∀ y ∈ L, P y := by
      intro P h y hy
      obtain ⟨k, hk, rfl⟩ := List.getElem_of_mem hy
      exact h k hk
    simp only [closedIdx]
    rw [List.getElem?_eq_getElem hL0, List.getElem?_eq_getElem (by omega : L.length - 1 < L.length)]
    simp only []
    by_cases hg : r.e < L[0] ∨ r.b > L[L.length - 1]
    · rw [if_pos hg]
      left
      refine ⟨hLn, ?_, .inl rfl⟩
      apply hmem
      intro k hk hm
      rcases hg with hg | hg
      · have := getElem_le_of_le hs (Nat.zero_le k) hk
        exact absurd (lt_of_lt_of_le (lt_of_le_of_lt hm.2 hg) this) (lt_irrefl _)
      · have := getElem_le_of_le hs (Nat.le_sub_one_of_lt hk) (by omega)
        exact absurd (lt_of_lt_of_le hg (le_trans hm.1 this)) (lt_irrefl _)
    · rw [if_neg hg]
      push Not at hg
      obtain ⟨hg1, hg2'⟩ := hg
      -- common facts
      have hlb := fun k (hk : k < L.length) => lowerBound_le_iff hs (v := r.b) hk
      have hle := fun k (hk : k < L.length) => lowerBound_le_iff hs (v := r.e) hk
      have hbn : lowerBound L r.b ≤ L.length - 1 := (hlb _ (by omega)).2 hg2'
      -- the computed i_max
      have main : ∃ j, closedMaxIdx r L = .ok j ∧ j < L.length ∧
          (∀ k (hk : k < L.length), k ≤ j → L[k] ≤ r.e) ∧
          (∀ k (hk : k < L.length), L[k] ≤ r.e → k ≤ j ∨ L[k] = r.e) ∧
          (∀ k (hk : k < L.length), L[k] = r.e → j ≤ k) := by
        have hle' := lowerBound_le L r.e
        unfold closedMaxIdx decIdx
        by_cases hend : lowerBound L r.e < L.length
        · have hge := le_getElem_lowerBound hend
          rw [List.getElem?_eq_getElem hend]
          by_cases hgt : L[lowerBound L r.e] > r.e
          · have h0 : lowerBound L r.e ≠ 0 := by
              intro h0
              simp only [h0] at hgt
              exact absurd hgt (not_lt.2 hg1)
            refine ⟨lowerBound L r.e - 1, by simp [hgt, h0], by omega, ?_, ?_, ?_⟩
            · intro k hk hkj
              exact le_of_lt (lt_of_lt_lowerBound (by omega) hk)
            · intro k hk hkr
              left
              by_contra hc
              have := getElem_le_of_le hs (by omega : lowerBound L r.e ≤ k) hk
              exact absurd (lt_of_lt_of_le hgt (le_trans this hkr)) (lt_irrefl _)
            · intro k hk hkr
              have := (hle k hk).2 (by rw [hkr])
              omega
          · refine ⟨lowerBound L r.e, by simp [hgt], hend, ?_, ?_, ?_⟩
            · intro k hk hkj
              exact le_trans (getElem_le_of_le hs hkj hend) (not_lt.1 hgt)
            · intro k hk hkr
              by_cases hc : k ≤ lowerBound L r.e
              · exact .inl hc
              · right
                exact le_antisymm hkr ((hle k hk).1 (by omega))
            · intro k hk hkr
              exact (hle k hk).2 (by rw [hkr])
        · have heq : lowerBound L r.e = L.length := by omega
          refine ⟨L.length - 1, ?_, by omega, ?_, ?_, ?_⟩
          · rw [List.getElem?_eq_none (by omega)]
            simp [heq, Nat.pos_iff_ne_zero.1 hL0]
          · intro k hk _
            exact le_of_lt (lt_of_lt_lowerBound (by omega) hk)
          · intro k hk _; left; omega
          · intro k hk hkr
            have := lt_of_lt_lowerBound (by omega : k < lowerBound L r.e) hk
            rw [hkr] at this; exact absurd this (lt_irrefl _)
      obtain ⟨j, hj, hjn, hj1, hj2, hj3⟩ := main
      rw [hj]
      by_cases hij : lowerBound L r.b > j
      · left
        refine ⟨hLn, ?_, .inr (by simp [hij])⟩
        apply hmem
        intro k hk hm
        have h1 := (hlb k hk).2 hm.1
        rcases hj2 k hk hm.2 with h2 | h2
        · omega
        · -- the first sample equal to the end is at or before `k`, and is not below the begin
          have h3 := hj3 k hk h2
          have h4 : L[j] < r.b := lt_of_lt_lowerBound hij hjn
          have h5 := hj1 j hjn le_rfl
          rcases lt_or_eq_of_le h5 with h6 | h6
          · -- `L[j] < r.e`; `lowerBound L r.e` is `j+1`
            unfold closedMaxIdx at hj
            by_cases hend : lowerBound L r.e < L.length
            · rw [List.getElem?_eq_getElem hend] at hj
              have hge := le_getElem_lowerBound hend
              by_cases hgt : L[lowerBound L r.e] > r.e
              · have := getElem_le_of_le hs ((hle k hk).2 (by rw [h2])) hk
                have h7 : L[k] ≤ r.e := le_of_eq h2
                exact absurd (lt_of_lt_of_le hgt (le_trans this h7)) (lt_irrefl _)
              · simp [hgt] at hj
                subst hj
                exact absurd (lt_of_le_of_lt hge h6) (lt_irrefl _)
            · have := (hle k hk).2 (by rw [h2])
              omega
          · have hh := lt_of_lt_of_le h4 hm.1
            rw [h2, h6] at hh
            exact absurd hh (lt_irrefl _)
      · right
        refine ⟨lowerBound L r.b, j, by simp [hij], by omega, hjn, rfl, ?_, ?_, hj3⟩
        · intro k hk h1 h2
          exact ⟨(hlb k hk).1 h1, hj1 k hk h2⟩
        · intro k hk hm
          exact ⟨(hlb k hk).2 hm.1, hj2 k hk hm.2⟩

/-- C03 for vectors without repeated values (redshift grids, spectral axes): the call returns
indices that select exactly the samples in the range, or throws; it throws exactly when the vector
is empty or no sample lies in the range, and it is never undefined. -/
theorem C03_closed (r : Range α) (l : List α) (hs : l.Pairwise (· < ·)) :
    (∀ i j, Range.closedIdx r l = .ok (i, j) → i ≤ j ∧ j < l.length ∧
      ∀ k (hk : k < l.length), (i ≤ k ∧ k ≤ j) ↔ r.Mem l[k]) ∧
    ((∃ ij, Range.closedIdx r l = .ok ij) ↔ ∃ x ∈ l, r.Mem x) ∧
    (Range.closedIdx r l = .throw .EMPTY_LIST ↔ l = []) ∧
    Range.closedIdx r l ≠ .ub := by
  have hs' := pairwise_le_of_lt hs
  rcases Range.closedIdx_cases r l hs' with ⟨rfl, h⟩ | ⟨h1, h2, h3⟩ | ⟨i, j, h, hij, hj, _, h1, h2, h3⟩
  · simp [h]
  · rcases h3 with h3 | h3 <;> simp only [h3] <;> simp_all
  · rw [h]
    refine ⟨?_, ?_, ?_, by simp⟩
    · intro i' j' he
      simp only [Res.ok.injEq, Prod.mk.injEq] at he
      obtain ⟨rfl, rfl⟩ := he
      refine ⟨hij, hj, fun k hk => ⟨fun hk2 => h1 k hk hk2.1 hk2.2, fun hm => ?_⟩⟩
      obtain ⟨h4, h5⟩ := h2 k hk hm
      refine ⟨h4, ?_⟩
      rcases h5 with h5 | h5
      · exact h5
      · rcases Nat.lt_or_eq_of_le (h3 k hk h5) with h6 | h6
        · have := getElem_lt_of_lt hs h6 hk
          rw [h5] at this
          -- `i ≤ j` and `l[j] < r.e`, so `k = j+1`-th sample is excluded only if duplicated
          exfalso
          have hlb := lowerBound_le_iff hs' (v := r.e) hk
          have hkk : lowerBound l r.e = k := by
            apply lowerBound_eq_of hs' (by omega)
            · intro a ha hak
              have := getElem_lt_of_lt hs hak hk
              rwa [h5] at this
            · intro a ha hak
              have := getElem_le_of_le hs' hak ha
              rwa [h5] at this
          simp only [Range.closedIdx, Range.closedMaxIdx] at h
          rw [List.getElem?_eq_getElem (by omega : 0 < l.length),
            List.getElem?_eq_getElem (by omega : l.length - 1 < l.length)] at h
          simp only [] at h
          split at h
          · simp at h
          · rw [hkk, List.getElem?_eq_getElem hk] at h
            simp only [h5, gt_iff_lt, lt_irrefl, if_false] at h
            split at h
            · simp at h
            · simp at h; omega
        · omega
    · simp only [Res.ok.injEq, exists_eq', true_iff]
      exact ⟨l[i], by simp, h1 i (by omega) le_rfl hij⟩
    · simp only [reduceCtorEq, false_iff]
      intro hc; subst hc; simp at hj

/-- C03, error codes: the two `CRANGE` errors occur only when no sample lies in the range. -/
theorem C03_closed_no_sample (r : Range α) (l : List α) (hs : l.Pairwise (· ≤ ·)) (hne : l ≠ [])
    (hno : ∀ x ∈ l, ¬ r.Mem x) :
    Range.closedIdx r l = .throw .CRANGE_VECTBORDERS_OUTSIDERANGE ∨
      Range.closedIdx r l = .throw .CRANGE_NO_INTERSECTION := by
  rcases Range.closedIdx_cases r l hs with ⟨rfl, _⟩ | ⟨_, _, h⟩ | ⟨i, j, h, hij, hj, _, h1, _⟩
  · exact absurd rfl hne
  · exact h
  · exact absurd (h1 i (by omega) le_rfl hij) (hno _ (by simp))

/-- C03 on every sorted vector, duplicates allowed. Partial: all selected samples are in the range
and a sample in the range that is not selected is equal to the end of the range. Missing: repeated
samples equal to the end are dropped, see `C03_closed_duplicates_dropped`. -/
theorem C03_closed_sorted_partial (r : Range α) (l : List α) (hs : l.Pairwise (· ≤ ·)) :
    (∀ i j, Range.closedIdx r l = .ok (i, j) → i ≤ j ∧ j < l.length ∧
      (∀ k (hk : k < l.length), i ≤ k → k ≤ j → r.Mem l[k]) ∧
      (∀ k (hk : k < l.length), r.Mem l[k] → i ≤ k ∧ (k ≤ j ∨ l[k] = r.e))) ∧
    ((∃ ij, Range.closedIdx r l = .ok ij) ↔ ∃ x ∈ l, r.Mem x) ∧
    Range.closedIdx r l ≠ .ub := by
  rcases Range.closedIdx_cases r l hs with ⟨rfl, h⟩ | ⟨h1, h2, h3⟩ | ⟨i, j, h, hij, hj, _, h1, h2, h3⟩
  · simp [h]
  · rcases h3 with h3 | h3 <;> simp only [h3] <;> simp_all
  · rw [h]
    refine ⟨?_, ?_, by simp⟩
    · intro i' j' he
      simp only [Res.ok.injEq, Prod.mk.injEq] at he
      obtain ⟨rfl, rfl⟩ := he
      exact ⟨hij, hj, h1, h2⟩
    · simp only [Res.ok.injEq, exists_eq', true_iff]
      exact ⟨l[i], by simp, h1 i (by omega) le_rfl hij⟩

/-- C03 is false of the code when the end value is repeated: samples in the range are left out. -/
theorem C03_closed_duplicates_dropped :
    ∃ (r : Range Int) (l : List Int), l.Pairwise (· ≤ ·) ∧ Range.closedIdx r l = .ok (0, 1) ∧
      ∃ (h : 2 < l.length), r.Mem l[2] :=
  ⟨⟨0, 2⟩, [1, 2, 2, 3], by decide, by decide, by decide, by decide⟩

example : ([1, 3, 5, 7] : List Int).Pairwise (· < ·) ∧
    Range.closedIdx (⟨2, 6⟩ : Range Int) [1, 3, 5, 7] = .ok (1, 2) := by decide

/-! ## C04 -/

theorem Range.enclosingIdx_spec (r : Range α) (l : List α) (hs : l.Pairwise (· ≤ ·))
    (hr : r.Valid) (hn : 0 < l.length) (h1 : l[0] ≤ r.b) (h2 : r.e ≤ l[l.length - 1]) :
    ∃ i j, enclosingIdx r l = .ok (i, j) ∧ j = lowerBound l r.e ∧ ∃ (hi : i < l.length) (hj : j < l.length),
      l[i] ≤ r.b ∧ r.e ≤ l[j] ∧ i ≤ j ∧
      (∀ k (hk : k < l.length), l[k] ≤ r.b → k ≤ i ∨ l[k] = l[i]) ∧
      (∀ k (hk : k < l.length), r.e ≤ l[k] → j ≤ k) := by
  unfold Valid at hr
  rename' l => L
  simp only [enclosingIdx]
  rw [List.getElem?_eq_getElem hn, List.getElem?_eq_getElem (by omega : L.length - 1 < L.length)]
  simp only []
  rw [if_neg (by push Not; exact ⟨h1, h2⟩)]
  have hlb := fun k (hk : k < L.length) => lowerBound_le_iff hs (v := r.b) hk
  have hle := fun k (hk : k < L.length) => lowerBound_le_iff hs (v := r.e) hk
  have hjn : lowerBound L r.e ≤ L.length - 1 := (hle _ (by omega)).2 h2
  have hbj : lowerBound L r.b ≤ lowerBound L r.e :=
    (hlb _ (by omega)).2 (le_trans hr (le_getElem_lowerBound (by omega)))
  have hb : lowerBound L r.b < L.length := by omega
  have hbge := le_getElem_lowerBound hb
  rw [List.getElem?_eq_getElem hb]
  by_cases hgt : L[lowerBound L r.b] > r.b
  · have h0 : lowerBound L r.b ≠ 0 := by
      intro h0
      simp only [h0] at hgt
      exact absurd hgt (not_lt.2 h1)
    refine ⟨lowerBound L r.b - 1, lowerBound L r.e, by simp [hgt, h0], rfl, by omega, by omega,
      le_of_lt (lt_of_lt_lowerBound (by omega) _), le_getElem_lowerBound _, by omega, ?_, ?_⟩
    · intro k hk hkr
      left
      by_contra hc
      have := getElem_le_of_le hs (by omega : lowerBound L r.b ≤ k) hk
      exact absurd (lt_of_lt_of_le hgt (le_trans this hkr)) (lt_irrefl _)
    · intro k hk hkr
      exact (hle k hk).2 hkr
  · refine ⟨lowerBound L r.b, lowerBound L r.e, by simp [hgt], rfl, hb, by omega,
      not_lt.1 hgt, le_getElem_lowerBound _, hbj, ?_, ?_⟩
    · intro k hk hkr
      by_cases hc : k ≤ lowerBound L r.b
      · exact .inl hc
      · right
        apply le_antisymm
        · exact le_trans hkr hbge
        · exact getElem_le_of_le hs (by omega) hk
    · intro k hk hkr
      exact (hle k hk).2 hkr

/-- C04. For a valid range covered by a sorted non-empty vector, `getEnclosingIntervalIndices`
returns in-bounds `i_min`, `i_max` with `v[i_min] ≤ begin`, `end ≤ v[i_max]`, and no sample is a
better bracket: a sample `≤ begin` has a value `≤ v[i_min]`, a sample `≥ end` a value
`≥ v[i_max]`. -/
theorem C04_enclosing (r : Range α) (l : List α) (hs : l.Pairwise (· ≤ ·))
    (hr : r.Valid) (hn : 0 < l.length) (h1 : l[0] ≤ r.b) (h2 : r.e ≤ l[l.length - 1]) :
    ∃ i j, Range.enclosingIdx r l = .ok (i, j) ∧ ∃ (hi : i < l.length) (hj : j < l.length),
      i ≤ j ∧ l[i] ≤ r.b ∧ r.e ≤ l[j] ∧
      (∀ k (hk : k < l.length), l[k] ≤ r.b → l[k] ≤ l[i]) ∧
      (∀ k (hk : k < l.length), r.e ≤ l[k] → l[j] ≤ l[k]) := by
  obtain ⟨i, j, h, _, hi, hj, a, b, c, d, e⟩ := Range.enclosingIdx_spec r l hs hr hn h1 h2
  refine ⟨i, j, h, hi, hj, c, a, b, ?_, fun k hk hk2 => getElem_le_of_le hs (e k hk hk2) hk⟩
  intro k hk hk2
  rcases d k hk hk2 with h3 | h3
  · exact getElem_le_of_le hs h3 hi
  · exact le_of_eq h3

/-- C04, strictly increasing vectors: `i_min` is the greatest index with value `≤ begin`, `i_max`
the least with value `≥ end`. -/
theorem C04_enclosing_strict (r : Range α) (l : List α) (hs : l.Pairwise (· < ·))
    (hr : r.Valid) (hn : 0 < l.length) (h1 : l[0] ≤ r.b) (h2 : r.e ≤ l[l.length - 1]) :
    ∃ i j, Range.enclosingIdx r l = .ok (i, j) ∧ i < l.length ∧ j < l.length ∧
      (∀ k (hk : k < l.length), l[k] ≤ r.b ↔ k ≤ i) ∧
      (∀ k (hk : k < l.length), r.e ≤ l[k] ↔ j ≤ k) := by
  have hs' := pairwise_le_of_lt hs
  obtain ⟨i, j, h, _, hi, hj, a, b, c, d, e⟩ := Range.enclosingIdx_spec r l hs' hr hn h1 h2
  refine ⟨i, j, h, hi, hj, fun k hk => ⟨fun hk2 => ?_, fun hk2 => ?_⟩,
    fun k hk => ⟨e k hk, fun hk2 => le_trans b (getElem_le_of_le hs' hk2 hk)⟩⟩
  · rcases d k hk hk2 with h3 | h3
    · exact h3
    · by_contra hc
      have := getElem_lt_of_lt hs (by omega : i < k) hk
      rw [h3] at this; exact absurd this (lt_irrefl _)
  · exact le_trans (getElem_le_of_le hs' hk2 hi) a

/-- C04, error branches of the two-argument overload, for a valid range: `EMPTY_LIST` iff the
vector is empty, `CRANGE_VECTBORDERS_OUTSIDERANGE` iff the vector does not cover the range; never
undefined. -/
theorem C04_enclosing_errors (r : Range α) (l : List α) (hs : l.Pairwise (· ≤ ·)) (hr : r.Valid) :
    (Range.enclosingIdx r l = .throw .EMPTY_LIST ↔ l = []) ∧
    (Range.enclosingIdx r l = .throw .CRANGE_VECTBORDERS_OUTSIDERANGE ↔
      ∃ h : l ≠ [], r.b < l.head h ∨ l.getLast h < r.e) ∧
    Range.enclosingIdx r l ≠ .ub := by
  rcases Nat.eq_zero_or_pos l.length with hz | hn
  · have := List.eq_nil_of_length_eq_zero hz
    subst this; simp [Range.enclosingIdx]
  · have hne : l ≠ [] := List.ne_nil_of_length_pos hn
    have hh : l.head hne = l[0] := List.head_eq_getElem _
    have hl : l.getLast hne = l[l.length - 1] := List.getLast_eq_getElem _
    by_cases hg : r.b < l[0] ∨ r.e > l[l.length - 1]
    · have : Range.enclosingIdx r l = .throw .CRANGE_VECTBORDERS_OUTSIDERANGE := by
        simp only [Range.enclosingIdx]
        rw [List.getElem?_eq_getElem hn,
          List.getElem?_eq_getElem (by omega : l.length - 1 < l.length)]
        simp only []; rw [if_pos hg]
      rw [this]
      refine ⟨by simp [hne], by simp only [true_iff]; exact ⟨hne, by rw [hh, hl]; exact hg⟩, by simp⟩
    · have hg' := hg
      push Not at hg'
      obtain ⟨i, j, h, _⟩ := Range.enclosingIdx_spec r l hs hr hn hg'.1 hg'.2
      rw [h]
      refine ⟨by simp [hne], ?_, by simp⟩
      simp only [reduceCtorEq, false_iff]
      rintro ⟨hc, h3⟩
      rw [hh, hl] at h3
      exact hg h3

/-- C04: without validity of the range the two-argument overload can dereference `end()`. -/
theorem C04_enclosing_inverted_ub :
    ∃ (r : Range Int) (l : List Int), l.Pairwise (· ≤ ·) ∧ ¬ r.Valid ∧
      Range.enclosingIdx r l = .ub :=
  ⟨⟨5, 0⟩, [1, 2], by decide, by decide, by decide⟩

theorem lowerBound_take {l : List α} (hs : l.Pairwise (· ≤ ·)) (v w : α) (h : v ≤ w) :
    lowerBound (l.take (lowerBound l w)) v = lowerBound l v := by
  have hvw : lowerBound l v ≤ lowerBound l w := by
    by_contra hc
    have h1 := lowerBound_le l v
    have h2 := lt_of_lt_lowerBound (l := l) (v := v) (by omega : lowerBound l w < _) (by omega)
    have h3 := le_getElem_lowerBound (l := l) (v := w) (by omega)
    exact absurd (lt_of_lt_of_le h2 (le_trans h h3)) (lt_irrefl _)
  have hsl := lowerBound_le l w
  apply lowerBound_eq_of (hs.sublist (List.take_sublist _ _))
  · simp; omega
  · intro i hi hlt
    simp only [List.getElem_take]
    exact lt_of_lt_lowerBound hlt _
  · intro i hi hle
    simp only [List.getElem_take]
    exact (lowerBound_le_iff hs (by simp at hi; omega)).1 hle

theorem lowerBound_drop {l : List α} (hs : l.Pairwise (· ≤ ·)) (v w : α) (h : v ≤ w) :
    lowerBound l v + lowerBound (l.drop (lowerBound l v)) w = lowerBound l w := by
  have hvw : lowerBound l v ≤ lowerBound l w := by
    by_contra hc
    have h1 := lowerBound_le l v
    have h2 := lt_of_lt_lowerBound (l := l) (v := v) (by omega : lowerBound l w < _) (by omega)
    have h3 := le_getElem_lowerBound (l := l) (v := w) (by omega)
    exact absurd (lt_of_lt_of_le h2 (le_trans h h3)) (lt_irrefl _)
  have hsl := lowerBound_le l w
  have : lowerBound (l.drop (lowerBound l v)) w = lowerBound l w - lowerBound l v := by
    apply lowerBound_eq_of (hs.sublist (List.drop_sublist _ _))
    · simp; omega
    · intro i hi hlt
      simp only [List.getElem_drop]
      exact lt_of_lt_lowerBound (by omega) _
    · intro i hi hle
      simp only [List.getElem_drop]
      exact (lowerBound_le_iff hs (by simp at hi; omega)).1 (by omega)
  omega

/-- C04: the overload with an inner value rejects values outside the range with
`CRANGE_VALUE_OUTSIDERANGE`, and otherwise does exactly what the other overload does (so it is
never undefined: an inner value exists only for a valid range). -/
theorem C04_enclosing_at (r : Range α) (l : List α) (v : α) (hs : l.Pairwise (· ≤ ·)) :
    (¬ r.Mem v → Range.enclosingIdxAt r l v = .throw .CRANGE_VALUE_OUTSIDERANGE) ∧
    (r.Mem v → Range.enclosingIdxAt r l v = Range.enclosingIdx r l ∧
      Range.enclosingIdxAt r l v ≠ .ub) := by
  constructor
  · intro h
    unfold Range.enclosingIdxAt
    rw [if_pos]
    unfold Range.Mem at h
    by_contra hc
    push Not at hc
    exact h hc
  · intro h
    have heq : Range.enclosingIdxAt r l v = Range.enclosingIdx r l := by
      unfold Range.enclosingIdxAt
      rw [if_neg (by push Not; exact h)]
      simp only [Range.enclosingIdx]
      rw [lowerBound_take hs _ _ h.1, lowerBound_drop hs _ _ h.2]
    refine ⟨heq, ?_⟩
    rw [heq]
    exact (C04_enclosing_errors r l hs (le_trans h.1 h.2)).2.2

example : ([1, 3, 5, 7] : List Int).Pairwise (· < ·) ∧ (⟨4, 5⟩ : Range Int).Valid ∧
    Range.enclosingIdx (⟨4, 5⟩ : Range Int) [1, 3, 5, 7] = .ok (1, 2) ∧
    Range.enclosingIdxAt (⟨4, 5⟩ : Range Int) [1, 3, 5, 7] 4 = .ok (1, 2) := by decide

end Amazed
