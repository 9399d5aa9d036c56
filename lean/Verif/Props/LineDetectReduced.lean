import Verif.Props.LineDetectProps

set_option linter.unusedSectionVars false
set_option linter.unusedVariables false

/-! # Line detection: the spectrum without its strong lines (C122) -/

namespace Amazed
namespace LineDetect
open Amp (LType Force)

variable {K : Type} [Field K] [LinearOrder K] [IsStrictOrderedRing K]

/-! ## Specification -/

/-- The sample `k` is in one of the intervals, bounds included. -/
def Hidden (axis : List K) (ex : List (Int × Int)) (k : Nat) : Prop :=
  ∃ x, axis[k]? = some x ∧ ∃ t ∈ ex, (t.1 : K) ≤ x ∧ x ≤ (t.2 : K)

open Classical in
/-- The samples in none of the intervals, in order. -/
noncomputable def kept (axis : List K) (ex : List (Int × Int)) : List Nat :=
  (List.range axis.length).filter fun k => decide (¬ Hidden axis ex k)

/-- The spectrum restricted to some samples. -/
def restrict (s : Spc K) (l : List Nat) : Spc K := ⟨pick s.axis l, pick s.flux l, if s.err = [] then [] else pick s.err l⟩

open Classical in
/-- The number of samples kept among `1, …, k`: the first sample does not count. -/
noncomputable def rank (axis : List K) (ex : List (Int × Int)) (k : Nat) : Nat :=
  ((List.range (k + 1)).filter fun i => decide (0 < i ∧ ¬ Hidden axis ex i)).length

/-! ## The mask -/

theorem masked_one {axis : List K} {ex : List (Int × Int)} {k : Nat} (hk : k < axis.length) :
    masked ex axis[k] = 1 ↔ ¬ Hidden axis ex k := by
  unfold masked
  have : (ex.any fun t => decide ((t.1 : K) ≤ axis[k] ∧ axis[k] ≤ (t.2 : K))) = true ↔ Hidden axis ex k := by
    unfold Hidden
    rw [List.any_eq_true, List.getElem?_eq_getElem hk]
    simp
  by_cases h : Hidden axis ex k
  · rw [if_pos (this.2 h)]
    simp [h]
  · rw [if_neg (fun hc => h (this.1 hc))]
    simp [h]

theorem masked_ne {axis : List K} {ex : List (Int × Int)} {k : Nat} (hk : k < axis.length) :
    masked ex axis[k] ≠ 0 ↔ ¬ Hidden axis ex k := by
  rw [← masked_one hk]
  unfold masked
  split
  · simp
  · simp

theorem go_eq : ∀ (mask v : List K) (P : Nat → Prop) [DecidablePred P], mask.length = v.length →
    (∀ (k : Nat) (hk : k < mask.length), mask[k] = 1 ↔ P k) →
    maskVector.go mask v = pick v ((List.range v.length).filter fun k => decide (P k))
  | [], [], P, _, _, _ => by simp [maskVector.go, pick]
  | m :: ms, x :: xs, P, _, hl, hm => by
    have ih := go_eq ms xs (fun k => P (k + 1)) (by simpa using hl) (fun k hk => by
      have := hm (k + 1) (by simpa using hk)
      simpa using this)
    have h0 : m = 1 ↔ P 0 := hm 0 (by simp)
    unfold maskVector.go
    rw [ih, List.length_cons, List.range_succ_eq_map, List.filter_cons]
    have htail : pick (x :: xs) ((List.map Nat.succ (List.range xs.length)).filter fun k => decide (P k)) =
        pick xs ((List.range xs.length).filter fun k => decide (P (k + 1))) := by
      unfold pick
      rw [List.filter_map, List.map_map]
      rfl
    by_cases hp : P 0
    · rw [if_pos (h0.2 hp), if_pos (by simpa using hp)]
      unfold pick at htail ⊢
      rw [List.map_cons, htail]
      rfl
    · rw [if_neg (fun h => hp (h0.1 h)), if_neg (by simpa using hp), htail]

theorem maskVector_eq (axis v : List K) (ex : List (Int × Int)) (hl : v.length = axis.length) :
    maskVector (axis.map (masked ex)) v = .ok (pick v (kept axis ex)) := by
  classical
  unfold maskVector
  rw [if_neg (by simp [hl])]
  congr 1
  rw [go_eq (axis.map (masked ex)) v (fun k => ¬ Hidden axis ex k) (by simp [hl])]
  · unfold kept
    rw [hl]
  · intro k hk
    rw [List.getElem_map]
    exact masked_one (by simpa using hk)

theorem reduce_eq (s : Spc K) (ex : List (Int × Int)) (h : WF s) :
    reduce (s.axis.map (masked ex)) s = .ok (restrict s (kept s.axis ex)) := by
  unfold reduce restrict
  rw [maskVector_eq _ _ _ rfl, Res.bind_ok, maskVector_eq _ _ _ h.flux, Res.bind_ok]
  rcases h.err with he | he
  · by_cases h0 : s.err = []
    · rw [if_pos (by rw [h0]; rfl), if_pos h0]
    · rw [if_neg (fun hc => h0 (List.length_eq_zero_iff.1 hc)), if_neg h0, maskVector_eq _ _ _ he, Res.bind_ok]
  · rw [if_pos (by rw [he]; rfl), if_pos he]

theorem pick_increasing {v : List K} (h : SAxis.Increasing v) {l : List Nat} (hl : l.Pairwise (· < ·)) (hb : ∀ i ∈ l, i < v.length) :
    SAxis.Increasing (pick v l) := by
  unfold SAxis.Increasing pick
  rw [List.pairwise_map]
  refine hl.imp_of_mem ?_
  intro a b ha hb' hab
  have h1 := hb a ha
  have h2 := hb b hb'
  simp only [List.getD_eq_getElem?_getD, List.getElem?_eq_getElem h1, List.getElem?_eq_getElem h2, Option.getD_some]
  exact (List.pairwise_iff_getElem.1 h) a b h1 h2 hab

theorem kept_pairwise (axis : List K) (ex : List (Int × Int)) : (kept axis ex).Pairwise (· < ·) := by
  unfold kept
  exact List.Pairwise.filter _ List.pairwise_lt_range

theorem kept_lt (axis : List K) (ex : List (Int × Int)) : ∀ i ∈ kept axis ex, i < axis.length := by
  intro i hi
  unfold kept at hi
  rw [List.mem_filter, List.mem_range] at hi
  exact hi.1

theorem restrict_wf (s : Spc K) (ex : List (Int × Int)) (h : WF s) : WF (restrict s (kept s.axis ex)) := by
  refine ⟨pick_increasing h.inc (kept_pairwise _ _) (kept_lt _ _), by simp [restrict, pick], ?_⟩
  unfold restrict
  by_cases h0 : s.err = []
  · right; simp [h0]
  · left; simp [h0, pick]

/-! ## The indices -/

theorem redGo_get : ∀ (ms : List K) (a k : Nat) (P : Nat → Prop) [DecidablePred P],
    (∀ (i : Nat) (hi : i < ms.length), ms[i] ≠ 0 ↔ P i) → k < ms.length →
    (redGo ms a)[k]? = some (a + ((List.range (k + 1)).filter fun i => decide (P i)).length)
  | [], a, k, P, _, _, hk => by simp at hk
  | m :: ms, a, k, P, _, hm, hk => by
    have h0 : m ≠ 0 ↔ P 0 := hm 0 (by simp)
    have htail : ∀ n, ((List.range (n + 1)).filter fun i => decide (P i)).length =
        (if P 0 then 1 else 0) + ((List.range n).filter fun i => decide (P (i + 1))).length := by
      intro n
      rw [List.range_succ_eq_map, List.filter_cons, List.filter_map, ]
      by_cases hp : P 0
      · simp [hp, Function.comp_def]; omega
      · simp [hp, Function.comp_def]
    unfold redGo
    cases k with
    | zero =>
      by_cases hp : P 0
      · simp [h0.2 hp, hp]
      · have : ¬ m ≠ 0 := fun h => hp (h0.1 h)
        rw [if_neg this]
        simp [hp]
    | succ k =>
      rw [List.getElem?_cons_succ, redGo_get ms _ k (fun i => P (i + 1)) (fun i hi => by
        have := hm (i + 1) (by simpa using hi)
        simpa using this) (by simpa using hk), htail]
      congr 1
      by_cases hp : P 0
      · rw [if_pos (h0.2 hp), if_pos hp]; omega
      · rw [if_neg (fun h => hp (h0.1 h)), if_neg hp]; omega

open Classical in
theorem reducedMap_get (axis : List K) (ex : List (Int × Int)) (k : Nat) (hk : k < axis.length) :
    (reducedMap (axis.map (masked ex)))[k]? = some (rank axis ex k) := by
  cases axis with
  | nil => simp at hk
  | cons x xs =>
    rw [List.map_cons]
    unfold reducedMap rank
    rw [List.range_succ_eq_map, List.filter_cons, if_neg (by simp), List.filter_map, List.length_map]
    cases k with
    | zero => simp
    | succ k =>
      rw [List.getElem?_cons_succ, redGo_get (xs.map (masked ex)) 0 k (fun i => ¬ Hidden (x :: xs) ex (i + 1))]
      · rw [Nat.zero_add]
        congr 2
        apply List.filter_congr
        intro i _
        simp
      · intro i hi
        rw [List.getElem_map]
        exact masked_ne (axis := x :: xs) (k := i + 1) (by simpa using hi)
      · simpa using hk

open Classical in
theorem rank_count (axis : List K) (ex : List (Int × Int)) (k : Nat) :
    ((List.range (k + 1)).filter fun i => decide (¬ Hidden axis ex i)).length =
      rank axis ex k + (if Hidden axis ex 0 then 0 else 1) := by
  unfold rank
  rw [List.range_succ_eq_map, List.filter_cons, List.filter_cons, if_neg (c := (decide (0 < 0 ∧ ¬ Hidden axis ex 0)) = true) (by simp)]
  have : (List.map Nat.succ (List.range k)).filter (fun i => decide (0 < i ∧ ¬ Hidden axis ex i)) =
      (List.map Nat.succ (List.range k)).filter (fun i => decide (¬ Hidden axis ex i)) := by
    apply List.filter_congr
    intro i hi
    rw [List.mem_map] at hi
    obtain ⟨j, _, rfl⟩ := hi
    simp
  rw [this]
  by_cases h0 : Hidden axis ex 0
  · simp [h0]
  · simp [h0]

theorem rank_mono (axis : List K) (ex : List (Int × Int)) {j k : Nat} (h : j ≤ k) : rank axis ex j ≤ rank axis ex k := by
  classical
  unfold rank
  apply List.Sublist.length_le
  exact (List.range_sublist.2 (by omega)).filter _

open Classical in
/-- The place of a kept sample among the kept samples. -/
theorem kept_get (axis : List K) (ex : List (Int × Int)) (k : Nat) (hk : k < axis.length) (hn : ¬ Hidden axis ex k) :
    ∃ i, (kept axis ex)[i]? = some k ∧ rank axis ex k = i + (if Hidden axis ex 0 then 1 else 0) := by
  refine ⟨((List.range k).filter fun i => decide (¬ Hidden axis ex i)).length, ?_, ?_⟩
  · have hsplit : ∃ m, List.range axis.length = List.range k ++ ([k] ++ m) := by
      obtain ⟨m, hm⟩ : ∃ m, axis.length = k + (m + 1) := ⟨axis.length - (k + 1), by omega⟩
      refine ⟨List.map (fun x => k + x) (List.map Nat.succ (List.range m)), ?_⟩
      rw [hm, List.range_add, List.range_succ_eq_map]
      simp
    obtain ⟨m, hsplit⟩ := hsplit
    unfold kept
    rw [hsplit, List.filter_append, List.filter_append]
    have : ([k].filter fun i => decide (¬ Hidden axis ex i)) = [k] := by simp [hn]
    rw [List.getElem?_append_right (by simp), this]
    simp
  · have h1 := rank_count axis ex k
    rw [List.range_succ, List.filter_append] at h1
    have : ([k].filter fun i => decide (¬ Hidden axis ex i)) = [k] := by simp [hn]
    rw [this, List.length_append, List.length_singleton] at h1
    by_cases h0 : Hidden axis ex 0
    · rw [if_pos h0] at h1 ⊢
      simpa using h1.symm
    · rw [if_neg h0] at h1 ⊢
      simpa using h1.symm

theorem rank_lt (axis : List K) (ex : List (Int × Int)) (k : Nat) (hk : k < axis.length) (h0 : ¬ Hidden axis ex 0) :
    rank axis ex k < (kept axis ex).length := by
  classical
  have h1 := rank_count axis ex k
  rw [if_neg h0] at h1
  have h2 : ((List.range (k + 1)).filter fun i => decide (¬ Hidden axis ex i)).length ≤ (kept axis ex).length := by
    unfold kept
    exact (List.Sublist.filter _ (List.range_sublist.2 (by omega))).length_le
  omega

/-! ## C122 -/

/-- **C122** The spectrum in which the peaks are tested again consists of the samples outside the intervals. When the first sample
is one of them, the index given to a kept sample is that of this sample in the new spectrum, and every index is valid. -/
theorem C122_index_partial (s : Spc K) (ex : List (Int × Int)) (h : WF s) :
    reduce (s.axis.map (masked ex)) s = .ok (restrict s (kept s.axis ex)) ∧ WF (restrict s (kept s.axis ex)) ∧
    (¬ Hidden s.axis ex 0 → ∀ k, k < s.axis.length → ∃ r, (reducedMap (s.axis.map (masked ex)))[k]? = some r ∧
      r < (restrict s (kept s.axis ex)).axis.length ∧
      (¬ Hidden s.axis ex k → (restrict s (kept s.axis ex)).axis[r]? = s.axis[k]? ∧
        (restrict s (kept s.axis ex)).flux[r]? = s.flux[k]?)) := by
  refine ⟨reduce_eq s ex h, restrict_wf s ex h, ?_⟩
  intro h0 k hk
  refine ⟨_, reducedMap_get s.axis ex k hk, ?_, ?_⟩
  · have := rank_lt s.axis ex k hk h0
    simpa [restrict, pick] using this
  · intro hn
    obtain ⟨i, h1, h2⟩ := kept_get s.axis ex k hk hn
    rw [if_neg h0, Nat.add_zero] at h2
    have hf := h.flux
    unfold restrict pick
    simp only [List.getElem?_map, h2, h1, Option.map_some]
    constructor
    · simp [hk]
    · simp [show k < s.flux.length by omega]

/-- **C122** When the first sample is in an interval, the index given to a kept sample is that of the next kept sample. -/
theorem C122_shift (s : Spc K) (ex : List (Int × Int)) (h0 : Hidden s.axis ex 0) (k : Nat) (hk : k < s.axis.length)
    (hn : ¬ Hidden s.axis ex k) :
    ∃ i, (kept s.axis ex)[i]? = some k ∧ (reducedMap (s.axis.map (masked ex)))[k]? = some (i + 1) := by
  obtain ⟨i, h1, h2⟩ := kept_get s.axis ex k hk hn
  rw [if_pos h0] at h2
  exact ⟨i, h1, by rw [reducedMap_get s.axis ex k hk, h2]⟩

/-- The first sample is hidden: the last sample gets an index beyond the end of the new spectrum. -/
example : reducedMap ([1, 2, 3, 4].map (masked [(1, 2)]) : List ℚ) = [0, 0, 1, 2] ∧
    maskVector ([1, 2, 3, 4].map (masked [(1, 2)]) : List ℚ) [1, 2, 3, 4] = .ok ([3, 4] : List ℚ) := by decide +kernel

/-- The first sample is kept: the indices are right. -/
example : reducedMap ([1, 2, 3, 4].map (masked [(2, 3)]) : List ℚ) = [0, 0, 0, 1] ∧
    maskVector ([1, 2, 3, 4].map (masked [(2, 3)]) : List ℚ) [1, 2, 3, 4] = .ok ([1, 4] : List ℚ) := by decide +kernel

end LineDetect
end Amazed
