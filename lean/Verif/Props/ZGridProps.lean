import Verif.Model.ZGrid
import Verif.Props.RangeProps
import Mathlib.Algebra.Order.Ring.Int

/-! # C09: redshift grid refinement -/

namespace Amazed

/-- C09, the splice: inside its domain `insertWithDuplicates` replaces the `ndup` elements at `pos`
by `src` and nothing else; outside it is undefined. -/
theorem C09_insertWithDuplicates {β : Type*} (dest src : List β) (pos ndup : Nat) :
    (ndup ≤ src.length → pos + ndup ≤ dest.length →
      insertWithDuplicates dest pos src ndup =
        .ok (dest.take pos ++ src ++ dest.drop (pos + ndup))) ∧
    (src.length < ndup ∨ dest.length < pos + ndup → insertWithDuplicates dest pos src ndup = .ub) := by
  constructor
  · intro h1 h2
    unfold insertWithDuplicates
    rw [if_neg (by omega)]
    simp only [Res.ok.injEq]
    have hlen : (dest.take pos ++ src.take (src.length - ndup)).length = pos + (src.length - ndup) := by
      simp; omega
    generalize hA : dest.take pos ++ src.take (src.length - ndup) = A at *
    have h3 : List.drop (A.length + ndup) A = [] := List.drop_eq_nil_of_le (by omega)
    rw [← hlen, List.take_left, List.drop_append, h3]
    simp only [List.nil_append, Nat.add_sub_cancel_left, List.drop_drop]
    rw [← hA, List.append_assoc (dest.take pos), List.take_append_drop]
  · intro h
    unfold insertWithDuplicates
    rw [if_pos (by omega)]

example : insertWithDuplicates [1, 5, 9, 20] 1 [4, 5, 6, 7] 2 = .ok [1, 4, 5, 6, 7, 20] := by decide

section
variable {K : Type*} [AddCommGroup K] [LinearOrder K] [IsOrderedAddMonoid K]

omit [AddCommGroup K] [LinearOrder K] [IsOrderedAddMonoid K] in
theorem patchEnds_length (f b : Option K) (s : List K) : (patchEnds f b s).length = s.length := by
  unfold patchEnds; cases f <;> cases b <;> simp

omit [AddCommGroup K] [LinearOrder K] [IsOrderedAddMonoid K] in
theorem patchEnds_getElem (f b : Option K) (s : List K) (i : Nat) (h : i < (patchEnds f b s).length)
    (h' : i < s.length) :
    (patchEnds f b s)[i] =
      (if i = s.length - 1 ∧ b.isSome then b.getD s[i]
       else if i = 0 ∧ f.isSome then f.getD s[i] else s[i]) := by
  match f, b with
  | none, none => simp [show patchEnds none none s = s from rfl]
  | some x, none =>
    simp only [show patchEnds (some x) none s = s.modify 0 (fun _ => x) from rfl,
      List.getElem_modify]
    simp [eq_comm (a := i)]
  | none, some y =>
    simp only [show patchEnds none (some y) s = s.modify (s.length - 1) (fun _ => y) from rfl,
      List.getElem_modify]
    simp [eq_comm (a := i)]
  | some x, some y =>
    simp only [show patchEnds (some x) (some y) s =
      (s.modify 0 (fun _ => x)).modify ((s.modify 0 (fun _ => x)).length - 1) (fun _ => y) from rfl,
      List.getElem_modify, List.length_modify]
    simp [eq_comm (a := i)]

/-- Full description of a successful `insertSubgrid`. -/
theorem insertSubgrid_ok {eps : K} {sub zgrid z : List K} {imin ndup : Nat}
    (heps : 0 ≤ eps) (hz : zgrid.Pairwise (· < ·)) (hs : sub.Pairwise (· < ·))
    (h : insertSubgrid eps sub zgrid = .ok (z, imin, ndup))
    (hne : sub ≠ []) (hzne : zgrid ≠ []) (hz2 : 2 ≤ zgrid.length)
    (hlo : ∀ x ∈ sub.tail, zgrid.head hzne < x)
    (hhi : ∀ x ∈ sub.dropLast, x < zgrid.getLast hzne) :
    ∃ sub' : List K, z = zgrid.take imin ++ sub' ++ zgrid.drop (imin + ndup) ∧
      sub'.length = sub.length ∧ imin + ndup ≤ zgrid.length ∧ 1 ≤ ndup ∧ ndup ≤ sub.length ∧
      (∀ i (h1 : i < sub.length) (h2 : i < sub'.length),
        sub'[i] = sub[i] ∨ (i = 0 ∧ sub'[i] = zgrid.head hzne ∧ sub.head hne - eps ≤ zgrid.head hzne) ∨
          (i = sub.length - 1 ∧ sub'[i] = zgrid.getLast hzne ∧
            zgrid.getLast hzne ≤ sub.getLast hne + eps)) ∧
      sub'.Pairwise (· < ·) ∧
      (∀ k (hk : k < zgrid.length), k < imin → ∀ x ∈ sub', zgrid[k] < x) ∧
      (∀ k (hk : k < zgrid.length), imin + ndup ≤ k → ∀ x ∈ sub', x < zgrid[k]) ∧
      (imin = 0 → sub'.head? = some (zgrid.head hzne)) ∧
      (imin + ndup = zgrid.length → sub'.getLast? = some (zgrid.getLast hzne)) ∧
      (∀ k (hk : k < zgrid.length), (zgrid[k] < sub.head hne - eps ↔ k < imin) ∧
        (sub.getLast hne + eps < zgrid[k] ↔ imin + ndup ≤ k)) := by
  have hz' := pairwise_le_of_lt hz
  have hs' := pairwise_le_of_lt hs
  have hsn : 0 < sub.length := List.length_pos_iff.2 hne
  have hzn : 0 < zgrid.length := List.length_pos_iff.2 hzne
  have hzh : zgrid.head hzne = zgrid[0] := List.head_eq_getElem _
  have hzl : zgrid.getLast hzne = zgrid[zgrid.length - 1] := List.getLast_eq_getElem _
  have hsh : sub.head hne = sub[0] := List.head_eq_getElem _
  have hsl : sub.getLast hne = sub[sub.length - 1] := List.getLast_eq_getElem _
  have hlo' : ∀ i (hi : i < sub.length), 0 < i → zgrid[0] < sub[i] := by
    intro i hi h0
    rw [← hzh]; apply hlo
    obtain ⟨j, rfl⟩ : ∃ j, i = j + 1 := ⟨i - 1, by omega⟩
    rw [← List.getElem_tail (by simp; omega)]
    exact List.getElem_mem _
  have hhi' : ∀ i (hi : i < sub.length), i < sub.length - 1 → sub[i] < zgrid[zgrid.length - 1] := by
    intro i hi h0
    rw [← hzl]; apply hhi
    rw [← List.getElem_dropLast (by simp; omega)]
    exact List.getElem_mem _
  unfold insertSubgrid at h
  simp only [List.getElem?_eq_getElem hsn, List.getElem?_eq_getElem (by omega : sub.length - 1 < sub.length),
    List.getElem?_eq_getElem hzn, List.getElem?_eq_getElem (by omega : zgrid.length - 1 < zgrid.length)] at h
  generalize hrng : (Range.intersect (⟨sub[0] - eps, sub[sub.length - 1] + eps⟩ : Range K)
    ⟨zgrid[0], zgrid[zgrid.length - 1]⟩ ⟨sub[0] - eps, sub[sub.length - 1] + eps⟩).2 = rng at h
  split at h
  rotate_left
  · simp at h
  · simp at h
  rename_i i j hcl
  -- the closed interval exists, hence there is an intersection
  obtain ⟨hij, hj, hclosed⟩ := (C03_closed rng zgrid hz).1 i j hcl
  have hmemi := (hclosed i (by omega)).1 ⟨le_rfl, hij⟩
  have hss : sub[0] ≤ sub[sub.length - 1] := getElem_le_of_le hs' (by omega) (by omega)
  have hzz : zgrid[0] ≤ zgrid[zgrid.length - 1] := getElem_le_of_le hz' (by omega) (by omega)
  have hzi0 : zgrid[0] ≤ zgrid[i] := getElem_le_of_le hz' (by omega) (by omega)
  have hzi1 : zgrid[i] ≤ zgrid[zgrid.length - 1] := getElem_le_of_le hz' (by omega) (by omega)
  have hrb : rng.b = max (sub[0] - eps) zgrid[0] ∧
      rng.e = min (sub[sub.length - 1] + eps) zgrid[zgrid.length - 1] := by
    unfold Range.intersect at hrng
    split at hrng
    · rw [← hrng]; simp
    · rename_i hni
      exfalso
      rw [← hrng] at hmemi
      apply hni
      unfold Range.hasIntersection
      simp only [decide_eq_true_eq, max_le_iff, le_min_iff]
      obtain ⟨m1, m2⟩ := hmemi
      simp only at m1 m2
      refine ⟨⟨le_trans m1 m2, le_trans hzi0 m2⟩, le_trans m1 hzi1, hzz⟩
  obtain ⟨hrb, hre⟩ := hrb
  generalize hsub' : patchEnds (if rng.b = zgrid[0] then some zgrid[0] else none)
    (if rng.e = zgrid[zgrid.length - 1] then some zgrid[zgrid.length - 1] else none) sub = sub' at h
  have hlen : sub'.length = sub.length := by rw [← hsub']; exact patchEnds_length _ _ _
  have hnd : ndup = j - i + 1 ∧ imin = i ∧
      insertWithDuplicates zgrid i sub' (j - i + 1) = .ok z := by
    split at h
    · rename_i z' hz3
      simp only [Res.ok.injEq, Prod.mk.injEq] at h
      obtain ⟨rfl, rfl, rfl⟩ := h
      exact ⟨rfl, rfl, hz3⟩
    · simp at h
    · simp at h
  obtain ⟨rfl, rfl, hins⟩ := hnd
  have hdom : j - imin + 1 ≤ sub'.length := by
    by_contra hc
    rw [(C09_insertWithDuplicates zgrid sub' imin (j - imin + 1)).2 (by omega)] at hins
    simp at hins
  rw [(C09_insertWithDuplicates zgrid sub' imin (j - imin + 1)).1 hdom (by omega)] at hins
  simp only [Res.ok.injEq] at hins
  -- values of sub'
  have hval : ∀ k (h1 : k < sub.length) (h2 : k < sub'.length),
      sub'[k] = (if k = sub.length - 1 ∧ rng.e = zgrid[zgrid.length - 1] then zgrid[zgrid.length - 1]
       else if k = 0 ∧ rng.b = zgrid[0] then zgrid[0] else sub[k]) := by
    intro k h1 h2
    have h2' : k < (patchEnds (if rng.b = zgrid[0] then some zgrid[0] else none)
      (if rng.e = zgrid[zgrid.length - 1] then some zgrid[zgrid.length - 1] else none) sub).length := by
      rw [patchEnds_length]; omega
    have e1 : sub'[k] = (patchEnds (if rng.b = zgrid[0] then some zgrid[0] else none)
      (if rng.e = zgrid[zgrid.length - 1] then some zgrid[zgrid.length - 1] else none) sub)[k] := by
      simp only [hsub']
    rw [e1, patchEnds_getElem _ _ _ _ h2' h1]
    by_cases c1 : rng.e = zgrid[zgrid.length - 1] <;> by_cases c2 : rng.b = zgrid[0] <;> simp [c1, c2]
  -- relation between sub' values and the selected interval
  have hbeq : rng.b = zgrid[0] → imin = 0 := by
    intro hb
    by_contra hc
    have h1 := (hclosed 0 hzn)
    have h2 : rng.Mem zgrid[0] := ⟨le_of_eq hb, le_trans hzi0 hmemi.2⟩
    have := h1.2 h2
    omega
  have heeq : rng.e = zgrid[zgrid.length - 1] → j = zgrid.length - 1 := by
    intro hb
    have h2 : rng.Mem zgrid[zgrid.length - 1] := ⟨le_trans hmemi.1 hzi1, le_of_eq hb.symm⟩
    have := (hclosed (zgrid.length - 1) (by omega)).2 h2
    omega
  have hb0 : imin = 0 → rng.b = zgrid[0] := by
    intro hi0
    subst hi0
    rw [hrb]; apply max_eq_right
    have := hmemi.1; rw [hrb] at this
    exact le_trans (le_max_left _ _) this
  have hj1 : j = zgrid.length - 1 → rng.e = zgrid[zgrid.length - 1] := by
    intro hi0
    rw [hre]; apply min_eq_right
    have := ((hclosed j hj).1 ⟨hij, le_rfl⟩).2
    rw [hre] at this
    simp only [hi0] at this
    exact le_trans this (min_le_left _ _)
  have hnotmem_lo : ∀ k (hk : k < zgrid.length), k < imin → zgrid[k] < rng.b := by
    intro k hk hki
    by_contra hc
    have : rng.Mem zgrid[k] := ⟨not_lt.1 hc, le_trans (getElem_le_of_le hz' (le_of_lt hki) (by omega)) hmemi.2⟩
    have := (hclosed k hk).2 this
    omega
  have hmemj := (hclosed j hj).1 ⟨hij, le_rfl⟩
  have hnotmem_hi : ∀ k (hk : k < zgrid.length), j < k → rng.e < zgrid[k] := by
    intro k hk hki
    by_contra hc
    have : rng.Mem zgrid[k] := ⟨le_trans hmemj.1 (getElem_le_of_le hz' (le_of_lt hki) (by omega)), not_lt.1 hc⟩
    have := (hclosed k hk).2 this
    omega
  have hbgt : imin ≠ 0 → rng.b = sub[0] - eps := by
    intro hi0
    rcases max_choice (sub[0] - eps) zgrid[0] with hm | hm
    · rw [hrb, hm]
    · exact absurd (hbeq (by rw [hrb, hm])) hi0
  have helt : j ≠ zgrid.length - 1 → rng.e = sub[sub.length - 1] + eps := by
    intro hi0
    rcases min_choice (sub[sub.length - 1] + eps) zgrid[zgrid.length - 1] with hm | hm
    · rw [hre, hm]
    · exact absurd (heeq (by rw [hre, hm])) hi0
  refine ⟨sub', ?_, hlen, by omega, by omega, by omega, ?_, ?_, ?_, ?_, ?_, ?_, ?_⟩
  · rw [← hins]
  · intro k h1 h2
    rw [hval k h1 h2, hzh, hzl, hsh, hsl]
    split
    · rename_i hc
      right; right
      refine ⟨hc.1, rfl, ?_⟩
      have := hc.2; rw [hre] at this; rw [← this]; exact min_le_left _ _
    · split
      · rename_i hc
        right; left
        refine ⟨hc.1, rfl, ?_⟩
        have := hc.2; rw [hrb] at this; rw [← this]; exact le_max_left _ _
      · exact .inl rfl
  · rw [List.pairwise_iff_getElem]
    intro a b ha hb hab
    rw [hval a (by omega) ha, hval b (by omega) hb]
    rw [if_neg (by omega : ¬ (a = sub.length - 1 ∧ _))]
    rw [if_neg (by omega : ¬ (b = 0 ∧ _))]
    have hab' := getElem_lt_of_lt hs hab (by omega)
    split
    · split
      · exact getElem_lt_of_lt hz (by omega) (by omega)
      · exact hlo' b (by omega) (by omega)
    · split
      · exact hhi' a (by omega) (by omega)
      · exact hab'
  · intro k hk hki x hx
    obtain ⟨a, ha, rfl⟩ := List.getElem_of_mem hx
    rw [hval a (by omega) ha]
    have hbb := hbgt (by omega)
    have h1 := hnotmem_lo k hk hki
    split
    · exact getElem_lt_of_lt hz (by omega) (by omega)
    · rw [if_neg (fun hc => by have := hbeq hc.2; omega)]
      rw [hbb] at h1
      have h2 := getElem_le_of_le hs' (Nat.zero_le a) (by omega)
      exact lt_of_lt_of_le h1 (le_trans (sub_le_self _ heps) h2)
  · intro k hk hki x hx
    obtain ⟨a, ha, rfl⟩ := List.getElem_of_mem hx
    rw [hval a (by omega) ha]
    have hbb := helt (by omega)
    have h1 := hnotmem_hi k hk (by omega)
    rw [if_neg (fun hc => by have := heeq hc.2; omega)]
    split
    · exact getElem_lt_of_lt hz (by omega) (by omega)
    · rw [hbb] at h1
      have h2 := getElem_le_of_le hs' (by omega : a ≤ sub.length - 1) (by omega)
      exact lt_of_le_of_lt (le_trans h2 (le_add_of_nonneg_right heps)) h1
  · intro h0
    rw [List.head?_eq_getElem?, List.getElem?_eq_getElem (by omega : 0 < sub'.length),
      hval 0 (by omega) (by omega), hzh]
    rw [if_neg (fun hc => by have := heeq hc.2; omega), if_pos ⟨rfl, hb0 h0⟩]
  · intro h0
    rw [List.getLast?_eq_getElem?, List.getElem?_eq_getElem (by omega : sub'.length - 1 < sub'.length),
      hval _ (by omega) (by omega), hzl]
    rw [if_pos ⟨by omega, hj1 (by omega)⟩]
  · intro k hk
    rw [hsh, hsl]
    have hb1 : sub[0] - eps ≤ rng.b := by rw [hrb]; exact le_max_left _ _
    have he1 : rng.e ≤ sub[sub.length - 1] + eps := by rw [hre]; exact min_le_left _ _
    constructor
    · constructor
      · intro h1
        by_contra hc
        have := getElem_le_of_le hz' (by omega : imin ≤ k) hk
        exact absurd (lt_of_lt_of_le h1 (le_trans hb1 (le_trans hmemi.1 this))) (lt_irrefl _)
      · intro h1
        rw [← hbgt (by omega)]; exact hnotmem_lo k hk h1
    · constructor
      · intro h1
        by_contra hc
        have := getElem_le_of_le hz' (by omega : k ≤ j) hj
        exact absurd (lt_of_le_of_lt (le_trans this (le_trans hmemj.2 he1)) h1) (lt_irrefl _)
      · intro h1
        rw [← helt (by omega)]; exact hnotmem_hi k hk (by omega)

/-- Hypotheses under which the refinement of a redshift grid is meant to be used: the main grid is
strictly increasing with at least two points, the subgrid is strictly increasing, and only its first
and last point may lie outside the main grid (the subgrid window was cut to the main range). -/
structure SubgridFits (sub zgrid : List K) : Prop where
  zsorted : zgrid.Pairwise (· < ·)
  zlen : 2 ≤ zgrid.length
  ssorted : sub.Pairwise (· < ·)
  lo : ∀ x ∈ sub.tail, ∀ a, zgrid.head? = some a → a < x
  hi : ∀ x ∈ sub.dropLast, ∀ a, zgrid.getLast? = some a → x < a

/-- C09. A successful `insertSubgrid` yields a strictly increasing grid with the same first and last
redshift, which contains every subgrid point (up to the two border points moved to the border of the
main grid), keeps every first-pass redshift outside the subgrid span, has no other point, and the
returned indices delimit the replaced points. -/
theorem C09_insertSubgrid (eps : K) (sub zgrid z : List K) (imin ndup : Nat) (heps : 0 ≤ eps)
    (hf : SubgridFits sub zgrid) (h : insertSubgrid eps sub zgrid = .ok (z, imin, ndup)) :
    z.Pairwise (· < ·) ∧ z.head? = zgrid.head? ∧ z.getLast? = zgrid.getLast? ∧
    z.length = zgrid.length + sub.length - ndup ∧
    (∀ x ∈ sub, x ∈ z ∨ (∃ a, zgrid.head? = some a ∧ a ∈ z ∧ x - eps ≤ a) ∨
      (∃ a, zgrid.getLast? = some a ∧ a ∈ z ∧ a ≤ x + eps)) ∧
    (∀ x ∈ zgrid, (∀ y ∈ sub, x < y - eps) ∨ (∀ y ∈ sub, y + eps < x) → x ∈ z) ∧
    (∀ x ∈ z, x ∈ zgrid ∨ x ∈ sub) := by
  have hne : sub ≠ [] := by rintro rfl; simp [insertSubgrid] at h
  have hzne : zgrid ≠ [] := List.ne_nil_of_length_pos (by have := hf.zlen; omega)
  obtain ⟨sub', rfl, hl, hin, hn1, hn2, hval, hsort, hlo, hhi, hh, ht, hiff⟩ :=
    insertSubgrid_ok heps hf.zsorted hf.ssorted h hne hzne hf.zlen
      (fun x hx => hf.lo x hx _ (List.head?_eq_some_head hzne))
      (fun x hx => hf.hi x hx _ (List.getLast?_eq_some_getLast hzne))
  have hsn : 0 < sub.length := List.length_pos_iff.2 hne
  have hz2 := hf.zlen
  have hs'ne : sub' ≠ [] := List.ne_nil_of_length_pos (by omega)
  have hheadz := List.head?_eq_some_head hzne
  have hlastz := List.getLast?_eq_some_getLast hzne
  refine ⟨?_, ?_, ?_, ?_, ?_, ?_, ?_⟩
  · rw [List.pairwise_append, List.pairwise_append]
    refine ⟨⟨hf.zsorted.sublist (List.take_sublist _ _), hsort, ?_⟩,
      hf.zsorted.sublist (List.drop_sublist _ _), ?_⟩
    · intro a ha b hb
      obtain ⟨k, hk, rfl⟩ := List.getElem_of_mem ha
      simp only [List.length_take] at hk
      simp only [List.getElem_take]
      exact hlo k (by omega) (by omega) b hb
    · intro a ha b hb
      obtain ⟨k, hk, rfl⟩ := List.getElem_of_mem hb
      simp only [List.length_drop] at hk
      simp only [List.getElem_drop]
      rcases List.mem_append.1 ha with ha | ha
      · obtain ⟨m, hm, rfl⟩ := List.getElem_of_mem ha
        simp only [List.length_take] at hm
        simp only [List.getElem_take]
        exact getElem_lt_of_lt hf.zsorted (by omega) (by omega)
      · exact hhi _ (by omega) (by omega) a ha
  · by_cases h0 : imin = 0
    · subst h0
      simp only [List.take_zero, List.nil_append]
      rw [List.head?_append_of_ne_nil _ hs'ne, hh rfl, hheadz]
    · rw [List.append_assoc, List.head?_append_of_ne_nil _ (by simp [h0, hzne])]
      rw [List.head?_take, if_neg h0]
  · by_cases h0 : imin + ndup = zgrid.length
    · rw [h0, List.drop_length, List.append_nil, List.getLast?_append_of_ne_nil _ hs'ne, ht h0, hlastz]
    · have hd : zgrid.drop (imin + ndup) ≠ [] := by simp; omega
      rw [List.getLast?_append_of_ne_nil _ hd, List.getLast?_drop, if_neg (by omega)]
  · simp; omega
  · intro x hx
    obtain ⟨i, hi, rfl⟩ := List.getElem_of_mem hx
    have hmem : sub'[i]'(by omega) ∈ zgrid.take imin ++ sub' ++ zgrid.drop (imin + ndup) := by
      simp [List.getElem_mem]
    rcases hval i hi (by omega) with hv | ⟨h0, hv, hle⟩ | ⟨h0, hv, hle⟩
    · left; rw [← hv]; exact hmem
    · right; left
      refine ⟨_, hheadz, by rw [← hv]; exact hmem, ?_⟩
      subst h0
      rwa [List.head_eq_getElem] at hle
    · right; right
      refine ⟨_, hlastz, by rw [← hv]; exact hmem, ?_⟩
      subst h0
      rw [List.getLast_eq_getElem hne] at hle
      exact hle
  · intro x hx hor
    obtain ⟨k, hk, rfl⟩ := List.getElem_of_mem hx
    rcases hor with ho | ho
    · have := (hiff k hk).1.1 (ho _ (List.head_mem hne))
      apply List.mem_append_left; apply List.mem_append_left
      rw [List.mem_take_iff_getElem]
      exact ⟨k, by omega, rfl⟩
    · have := (hiff k hk).2.1 (ho _ (List.getLast_mem hne))
      apply List.mem_append_right
      rw [List.mem_drop_iff_getElem]
      exact ⟨k - (imin + ndup), by omega, by congr 1; omega⟩
  · intro x hx
    rcases List.mem_append.1 hx with hx | hx
    · rcases List.mem_append.1 hx with hx | hx
      · exact .inl (List.mem_of_mem_take hx)
      · obtain ⟨i, hi, rfl⟩ := List.getElem_of_mem hx
        rcases hval i (by omega) hi with hv | ⟨h0, hv, hle⟩ | ⟨h0, hv, hle⟩
        · right; rw [hv]; exact List.getElem_mem _
        · left; rw [hv]; exact List.head_mem _
        · left; rw [hv]; exact List.getLast_mem _
    · exact .inl (List.mem_of_mem_drop hx)

/-- C09 over a whole refinement: inserting any number of subgrids one after the other, each fitting
the borders of the main grid, keeps a strictly increasing grid with the same borders; every point
comes from the main grid or a subgrid. -/
theorem C09_insertSubgrids (eps : K) (heps : 0 ≤ eps) (subs : List (List K)) (zgrid z : List K)
    (hz : zgrid.Pairwise (· < ·)) (hz2 : 2 ≤ zgrid.length)
    (hsubs : ∀ s ∈ subs, SubgridFits s zgrid)
    (h : insertSubgrids eps zgrid subs = .ok z) :
    z.Pairwise (· < ·) ∧ z.head? = zgrid.head? ∧ z.getLast? = zgrid.getLast? ∧
    zgrid.length ≤ z.length ∧ (∀ x ∈ z, x ∈ zgrid ∨ ∃ s ∈ subs, x ∈ s) := by
  induction subs generalizing zgrid with
  | nil =>
    simp only [insertSubgrids, Res.ok.injEq] at h
    subst h
    exact ⟨hz, rfl, rfl, le_rfl, fun x hx => .inl hx⟩
  | cons s ss ih =>
    unfold insertSubgrids at h
    split at h
    rotate_left
    · simp at h
    · simp at h
    rename_i z1 i n h1
    have hfs := hsubs s (by simp)
    have hne : s ≠ [] := by rintro rfl; simp [insertSubgrid] at h1
    have hzne : zgrid ≠ [] := List.ne_nil_of_length_pos (by omega)
    obtain ⟨_, _, _, hin, _, hn2, _⟩ :=
      insertSubgrid_ok heps hz hfs.ssorted h1 hne hzne hz2
        (fun x hx => hfs.lo x hx _ (List.head?_eq_some_head hzne))
        (fun x hx => hfs.hi x hx _ (List.getLast?_eq_some_getLast hzne))
    obtain ⟨a, b, c, d, _, _, e⟩ := C09_insertSubgrid eps s zgrid z1 i n heps hfs h1
    have hlen : zgrid.length ≤ z1.length := by omega
    obtain ⟨a', b', c', d', e'⟩ := ih z1 a (by omega) (fun t ht => by
      have := hsubs t (by simp [ht])
      exact ⟨a, by omega, this.ssorted, fun x hx w hw => this.lo x hx w (b ▸ hw),
        fun x hx w hw => this.hi x hx w (c ▸ hw)⟩) h
    refine ⟨a', b'.trans b, c'.trans c, by omega, fun x hx => ?_⟩
    rcases e' x hx with h5 | ⟨t, ht, h5⟩
    · rcases e x h5 with h6 | h6
      · exact .inl h6
      · exact .inr ⟨s, by simp, h6⟩
    · exact .inr ⟨t, by simp [ht], h5⟩

end

/-- C09: a subgrid with fewer points than the main grid has in its span is undefined behaviour
(an iterator before `begin()`). -/
theorem C09_coarse_subgrid_ub : ∃ sub zgrid : List Int, SubgridFits sub zgrid ∧
    insertSubgrid 0 sub zgrid = .ub :=
  ⟨[1, 5], [0, 1, 2, 3, 4, 5, 6],
    ⟨by decide, by decide, by decide, by simp, by simp⟩, by decide⟩

/-- C09: if more than the border point of the subgrid lies outside the main grid the result is not
sorted. -/
theorem C09_overhanging_subgrid_unsorted : ∃ sub zgrid z : List Int,
    zgrid.Pairwise (· < ·) ∧ sub.Pairwise (· < ·) ∧
    insertSubgrid 0 sub zgrid = .ok (z, 0, 2) ∧ ¬ z.Pairwise (· ≤ ·) :=
  ⟨[-4, -2, 1, 2], [0, 2, 4], [0, -2, 1, 2, 4], by decide, by decide, by decide, by decide⟩

example : SubgridFits ([-1, 0, 1, 2, 3] : List Int) [-1, 2, 5] ∧
    insertSubgrid 0 ([-1, 0, 1, 2, 3] : List Int) [-1, 2, 5] = .ok ([-1, 0, 1, 2, 3, 5], 0, 2) :=
  ⟨⟨by decide, by decide, by decide, by simp, by simp⟩, by decide⟩

end Amazed
