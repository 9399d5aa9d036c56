import Verif.Props.PeaksProps

set_option linter.unusedSectionVars false
set_option linter.unusedVariables false

/-! # Peak detection: discarded peaks, enlarged ranges (C117, C118) -/

namespace Amazed
namespace Peaks
open Classical

variable {K : Type} [Field K] [LinearOrder K] [IsStrictOrderedRing K]

/-! ## Specification -/

/-- `c` is the first of the highest samples of `[r.1, r.2]`, and is above `-10^12`. -/
def Centre (s : List K) (r : Nat × Nat) (c : Nat) : Prop :=
  r.1 ≤ c ∧ c ≤ r.2 ∧ ∃ v, s[c]? = some v ∧ -(10 ^ 12) < v ∧
    (∀ (i : Nat) w, r.1 ≤ i → i ≤ r.2 → s[i]? = some w → w ≤ v) ∧
    (∀ (i : Nat) w, r.1 ≤ i → i < c → s[i]? = some w → w < v)

/-- The peaks that stay: their highest sample is neither one of the first two samples of the spectrum nor the last. -/
def Inner (s : List K) (r : Nat × Nat) : Prop := ∃ c, Centre s r c ∧ 2 ≤ c ∧ c + 2 ≤ s.length

/-- The ranges are non-empty and in the spectrum. -/
def Inside (n : Nat) (l : List (Nat × Nat)) : Prop := ∀ r ∈ l, r.1 ≤ r.2 ∧ r.2 < n

/-! ## The maximum of a range -/

theorem centre_ok (s : List K) (r : Nat × Nat) (h1 : r.1 ≤ r.2) (h2 : r.2 < s.length) :
    ∃ c : K × Int, centre s r = .ok c ∧
      ((c.2 = -1 ∧ ∀ (i : Nat) w, r.1 ≤ i → i ≤ r.2 → s[i]? = some w → w ≤ -(10 ^ 12)) ∨
       ∃ k : Nat, c.2 = k ∧ Centre s r k) := by
  have H := Res.foldN_inv (f := fun i (st : K × Int) => Res.at_ s i >>= fun v => if st.1 < v then .ok (v, (i : Int)) else .ok st)
    (fun k st => (st.2 = -1 ∧ st.1 = -(10 ^ 12) ∧ ∀ (i : Nat) w, r.1 ≤ i → i < k → s[i]? = some w → w ≤ -(10 ^ 12)) ∨
      ∃ c : Nat, st.2 = c ∧ r.1 ≤ c ∧ c < k ∧ s[c]? = some st.1 ∧ -(10 ^ 12) < st.1 ∧
        (∀ (i : Nat) w, r.1 ≤ i → i < k → s[i]? = some w → w ≤ st.1) ∧
        (∀ (i : Nat) w, r.1 ≤ i → i < c → s[i]? = some w → w < st.1))
    (r.2 + 1 - r.1) r.1 (-(10 ^ 12), -1) (Or.inl ⟨rfl, rfl, fun i w h3 h4 => absurd h4 (by omega)⟩) ?_
  · obtain ⟨c, e, hc⟩ := H
    refine ⟨c, e, ?_⟩
    have ek : r.1 + (r.2 + 1 - r.1) = r.2 + 1 := by omega
    rw [ek] at hc
    rcases hc with ⟨a1, a2, a3⟩ | ⟨k, a1, a2, a3, a4, a5, a6, a7⟩
    · exact Or.inl ⟨a1, fun i w h3 h4 => a3 i w h3 (by omega)⟩
    · exact Or.inr ⟨k, a1, a2, by omega, c.1, a4, a5, fun i w h3 h4 => a6 i w h3 (by omega), a7⟩
  · intro i st hi1 hi2 hP
    have hi : i < s.length := by omega
    have hex : ∀ (j : Nat) w, r.1 ≤ j → j < i + 1 → s[j]? = some w → (j < i ∧ s[j]? = some w) ∨ (j = i ∧ w = s[i]) := by
      intro j w h3 h4 h5
      by_cases hj : j < i
      · exact Or.inl ⟨hj, h5⟩
      · have : j = i := by omega
        subst this
        rw [List.getElem?_eq_getElem hi] at h5
        exact Or.inr ⟨rfl, (Option.some.inj h5).symm⟩
    rw [Res.at_of_lt hi, Res.bind_ok]
    by_cases hlt : st.1 < s[i]
    · rw [if_pos hlt]
      refine ⟨_, rfl, Or.inr ⟨i, rfl, hi1, by omega, List.getElem?_eq_getElem hi, ?_, ?_, ?_⟩⟩
      · rcases hP with ⟨_, a2, _⟩ | ⟨c, _, _, _, _, a5, _⟩
        · rw [a2] at hlt; exact hlt
        · exact lt_trans a5 hlt
      · intro j w h3 h4 h5
        rcases hex j w h3 h4 h5 with ⟨h6, h7⟩ | ⟨_, h7⟩
        · rcases hP with ⟨_, a2, a3⟩ | ⟨c, _, _, _, _, _, a6, _⟩
          · have := a3 j w h3 h6 h7
            rw [a2] at hlt
            exact le_of_lt (lt_of_le_of_lt this hlt)
          · exact le_of_lt (lt_of_le_of_lt (a6 j w h3 h6 h7) hlt)
        · exact le_of_eq h7
      · intro j w h3 h4 h5
        rcases hP with ⟨_, a2, a3⟩ | ⟨c, _, _, _, _, _, a6, _⟩
        · have := a3 j w h3 h4 h5
          rw [a2] at hlt
          exact lt_of_le_of_lt this hlt
        · exact lt_of_le_of_lt (a6 j w h3 h4 h5) hlt
    · rw [if_neg hlt]
      rw [not_lt] at hlt
      refine ⟨_, rfl, ?_⟩
      rcases hP with ⟨a1, a2, a3⟩ | ⟨c, a1, a2, a3, a4, a5, a6, a7⟩
      · left
        refine ⟨a1, a2, ?_⟩
        intro j w h3 h4 h5
        rcases hex j w h3 h4 h5 with ⟨h6, h7⟩ | ⟨_, h7⟩
        · exact a3 j w h3 h6 h7
        · rw [h7, ← a2]; exact hlt
      · right
        refine ⟨c, a1, a2, by omega, a4, a5, ?_, a7⟩
        intro j w h3 h4 h5
        rcases hex j w h3 h4 h5 with ⟨h6, h7⟩ | ⟨_, h7⟩
        · exact a6 j w h3 h6 h7
        · rw [h7]; exact hlt

theorem Centre.unique {s : List K} {r : Nat × Nat} {c c' : Nat} (h : Centre s r c) (h' : Centre s r c') : c = c' := by
  obtain ⟨a1, a2, v, a3, _, a4, a5⟩ := h
  obtain ⟨b1, b2, w, b3, _, b4, b5⟩ := h'
  rcases lt_trichotomy c c' with hl | hl | hl
  · exact absurd (b5 c v a1 hl a3) (not_lt.2 (a4 c' w b1 b2 b3))
  · exact hl
  · exact absurd (a5 c' w b1 hl b3) (not_lt.2 (b4 c v a1 a2 a3))

/-! ## Borders stay in the spectrum -/

theorem borderLeft_ok (s : List K) : ∀ (fuel : Nat) (new old : Nat), new < fuel → new < s.length → old < s.length →
    ∃ l : Int, borderLeft s fuel new old = .ok l ∧ 0 ≤ l ∧ l ≤ new := by
  intro fuel
  induction fuel with
  | zero => intro new old h; omega
  | succ fuel ih =>
    intro new old hf hn ho
    have e1 : Res.atZ s (new : Int) = .ok s[new] := by
      unfold Res.atZ; rw [if_neg (by omega), Int.toNat_natCast, Res.at_of_lt hn]
    have e2 : Res.atZ s (old : Int) = .ok s[old] := by
      unfold Res.atZ; rw [if_neg (by omega), Int.toNat_natCast, Res.at_of_lt ho]
    unfold borderLeft
    rw [e1, Res.bind_ok, e2, Res.bind_ok]
    by_cases hle : s[new] ≤ s[old]
    · rw [if_pos hle]
      by_cases h0 : (new : Int) = 0
      · rw [if_pos h0]
        exact ⟨_, rfl, by omega, by omega⟩
      · rw [if_neg h0]
        have e : max 0 ((new : Int) - 1) = ((new - 1 : Nat) : Int) := by omega
        rw [e]
        obtain ⟨l, h1, h2, h3⟩ := ih (new - 1) new (by omega) (by omega) hn
        exact ⟨l, h1, h2, by omega⟩
    · rw [if_neg hle]
      exact ⟨_, rfl, by omega, by omega⟩

theorem borderRight_ok (s : List K) : ∀ (fuel : Nat) (new old : Nat), s.length - new < fuel → new < s.length → old < s.length →
    ∃ l : Int, borderRight s fuel new old = .ok l ∧ (new : Int) ≤ l ∧ l < s.length := by
  intro fuel
  induction fuel with
  | zero => intro new old h; omega
  | succ fuel ih =>
    intro new old hf hn ho
    have e1 : Res.atZ s (new : Int) = .ok s[new] := by
      unfold Res.atZ; rw [if_neg (by omega), Int.toNat_natCast, Res.at_of_lt hn]
    have e2 : Res.atZ s (old : Int) = .ok s[old] := by
      unfold Res.atZ; rw [if_neg (by omega), Int.toNat_natCast, Res.at_of_lt ho]
    unfold borderRight
    rw [e1, Res.bind_ok, e2, Res.bind_ok]
    by_cases hle : s[new] ≤ s[old]
    · rw [if_pos hle]
      by_cases h0 : (new : Int) = (s.length : Int) - 1
      · rw [if_pos h0]
        exact ⟨_, rfl, by omega, by omega⟩
      · rw [if_neg h0]
        have e : max 0 ((new : Int) + 1) = ((new + 1 : Nat) : Int) := by omega
        rw [e]
        obtain ⟨l, h1, h2, h3⟩ := ih (new + 1) new (by omega) (by omega) hn
        exact ⟨l, h1, by omega, h3⟩
    · rw [if_neg hle]
      exact ⟨_, rfl, by omega, by omega⟩

theorem keep_ok (s : List K) (r : Nat × Nat) (h1 : r.1 ≤ r.2) (h2 : r.2 < s.length) :
    keep s r = .ok (decide (Inner s r)) := by
  obtain ⟨c, e, hc⟩ := centre_ok s r h1 h2
  unfold keep
  rw [e, Res.bind_ok]
  simp only []
  rcases hc with ⟨a1, a2⟩ | ⟨k, a1, a2⟩
  · rw [a1, if_pos (Or.inl (by decide))]
    congr 1
    symm
    rw [decide_eq_false_iff_not]
    rintro ⟨k, ⟨b1, b2, v, b3, b4, _⟩, _⟩
    exact absurd b4 (not_lt.2 (a2 k v b1 b2 b3))
  · rw [a1]
    have hk : k < s.length := by have := a2.2.1; omega
    by_cases hin : 2 ≤ k ∧ k + 2 ≤ s.length
    · rw [if_neg (by omega)]
      have e1 : max 0 ((k : Int) - 1) = ((k - 1 : Nat) : Int) := by omega
      have e2 : min (s.length : Int) ((k : Int) + 1) = ((k + 1 : Nat) : Int) := by omega
      rw [e1, e2]
      obtain ⟨l, b1, b2, b3⟩ := borderLeft_ok s (s.length + 1) (k - 1) k (by omega) (by omega) hk
      obtain ⟨q, b4, b5, b6⟩ := borderRight_ok s (s.length + 1) (k + 1) k (by omega) (by omega) hk
      rw [b1, Res.bind_ok, b4, Res.bind_ok]
      have : Inner s r := ⟨k, a2, hin.1, hin.2⟩
      rw [decide_eq_true this, decide_eq_true (by omega : q ≠ l)]
    · rw [if_pos (by omega)]
      congr 1
      symm
      rw [decide_eq_false_iff_not]
      rintro ⟨k', b1, b2, b3⟩
      rw [a2.unique b1] at hin
      exact hin ⟨b2, b3⟩

/-- **C117** The review of the borders keeps the ranges unchanged and in order, and discards exactly those whose highest sample is one of the
first two samples of the spectrum or the last one (or whose samples are all at most `-10^12`). The borders that it computes
are in the spectrum and have no effect. -/
theorem C117_kept (s : List K) (l : List (Nat × Nat)) (h : Inside s.length l) :
    redefineBorders s l = .ok (l.filter fun r => decide (Inner s r)) := by
  unfold redefineBorders
  have H := Res.foldN_inv (f := fun k (m : List (Nat × Nat)) => Res.at_ m (l.length - 1 - k) >>= fun r =>
    keep s r >>= fun b => .ok (if b then m else m.eraseIdx (l.length - 1 - k)))
    (fun k m => m = l.take (l.length - k) ++ (l.drop (l.length - k)).filter fun r => decide (Inner s r))
    l.length 0 l (by simp) ?_
  · obtain ⟨m, e, hm⟩ := H
    rw [e, hm]
    simp
  · intro k m hk1 hk2 hm
    have hlt : l.length - 1 - k < l.length := by omega
    have ht : l.take (l.length - k) = l.take (l.length - 1 - k) ++ [l[l.length - 1 - k]] := by
      have : l.length - k = (l.length - 1 - k) + 1 := by omega
      rw [this, List.take_add_one, List.getElem?_eq_getElem hlt]
      rfl
    have hd : l.drop (l.length - 1 - k) = l[l.length - 1 - k] :: l.drop (l.length - k) := by
      rw [List.drop_eq_getElem_cons hlt]
      congr 2
      omega
    have htl : (l.take (l.length - 1 - k)).length = l.length - 1 - k := by rw [List.length_take]; omega
    have hr := h _ (List.getElem_mem hlt)
    have eat : Res.at_ m (l.length - 1 - k) = .ok l[l.length - 1 - k] := by
      rw [Res.at_eq_ok, hm, ht, List.append_assoc, List.getElem?_append_right (by omega), htl]
      simp
    rw [eat, Res.bind_ok, keep_ok s _ hr.1 hr.2, Res.bind_ok]
    refine ⟨_, rfl, ?_⟩
    have e1 : l.length - (k + 1) = l.length - 1 - k := by omega
    rw [e1, hd, List.filter_cons]
    by_cases hin : Inner s l[l.length - 1 - k]
    · rw [decide_eq_true hin]
      simp only [if_true]
      rw [hm, ht, List.append_assoc]
      rfl
    · rw [decide_eq_false hin]
      simp only [Bool.false_eq_true, if_false]
      rw [hm, ht, List.append_assoc, List.eraseIdx_append_of_length_le (by omega), htl, Nat.sub_self]
      rfl

/-! ## C118: enlarged ranges -/

theorem enlarged_get (rate len : Int) (l : List (Nat × Nat)) (hr : rate ≠ 0) :
    ∃ e, enlarged rate len l = .ok e ∧ e.length = l.length ∧ ∀ (i : Nat) r, l[i]? = some r →
      e[i]? = some (fitStart rate r.1 r.2 (if 0 < i then (l[i - 1]?).map (fun (q : Nat × Nat) => (q.2 : Int)) else none),
        fitStop rate len r.1 r.2 (if i < l.length - 1 then (l[i + 1]?).map (fun (q : Nat × Nat) => (q.1 : Int)) else none)) := by
  unfold enlarged
  rw [if_neg hr]
  obtain ⟨e, h1, h2, _⟩ := MedCont.tab_total (P := fun _ => True) (g := fitRange l rate len) l.length (fun i hi => by
    unfold fitRange
    rw [Res.at_of_lt hi, Res.bind_ok]
    exact ⟨_, rfl, trivial⟩)
  refine ⟨e, h1, h2, ?_⟩
  intro i r hi
  obtain ⟨hl, er⟩ := List.getElem?_eq_some_iff.1 hi
  obtain ⟨a, h3, h4⟩ := Res.tab_get _ h1 i hl
  unfold fitRange at h4
  rw [Res.at_of_lt hl, Res.bind_ok, er] at h4
  rw [h3]
  exact congrArg some (Res.ok.inj h4).symm

/-- **C118** With a positive rate the range used for the fit of a peak, `[start, stop)`, contains the peak, stays in the
spectrum, starts at or after the last sample of the previous peak, stops before the first sample of the next one, and extends
the peak by at most `rate` times its width on each side; it extends it by exactly that unless it meets the end of the
spectrum or a neighbour. -/
theorem C118_enlarged (rate : Int) (n : Nat) (l : List (Nat × Nat)) (hr : 0 < rate) (hin : Inside n l)
    (hap : l.Pairwise fun r s => r.2 + 1 < s.1) :
    ∃ e, enlarged rate n l = .ok e ∧ e.length = l.length ∧ ∀ (i : Nat) r, l[i]? = some r →
      ∃ a b : Int, e[i]? = some (a, b) ∧ 0 ≤ a ∧ a ≤ r.1 ∧ (r.2 : Int) < b ∧ b ≤ n ∧
        (∀ q, l[i + 1]? = some q → b ≤ q.1) ∧ (∀ q, 0 < i → l[i - 1]? = some q → (q.2 : Int) ≤ a) ∧
        (a = r.1 - rate * (r.2 + 1 - r.1) ∨ (r.1 - rate * (r.2 + 1 - r.1) < a ∧
          (a = 0 ∨ ∃ q, 0 < i ∧ l[i - 1]? = some q ∧ a = q.2))) ∧
        (b = r.2 + 1 + rate * (r.2 + 1 - r.1) ∨ (b < r.2 + 1 + rate * (r.2 + 1 - r.1) ∧
          (b = n ∨ ∃ q, l[i + 1]? = some q ∧ b = q.1))) := by
  obtain ⟨e, h1, h2, h3⟩ := enlarged_get rate n l (by omega)
  refine ⟨e, h1, h2, ?_⟩
  intro i r hi
  obtain ⟨hl, er⟩ := List.getElem?_eq_some_iff.1 hi
  have hri := hin r (er ▸ List.getElem_mem hl)
  refine ⟨_, _, h3 i r hi, ?_⟩
  have hw : 0 < rate * ((r.2 : Int) + 1 - r.1) := Int.mul_pos hr (by omega)
  have hnext : ∀ q, l[i + 1]? = some q → r.2 + 1 < q.1 ∧ i < l.length - 1 := by
    intro q hq
    obtain ⟨hq1, hq2⟩ := List.getElem?_eq_some_iff.1 hq
    have := (List.pairwise_iff_getElem.1 hap) i (i + 1) hl hq1 (by omega)
    rw [er, hq2] at this
    exact ⟨this, by omega⟩
  have hprev : ∀ q, 0 < i → l[i - 1]? = some q → q.2 + 1 < r.1 := by
    intro q h0 hq
    obtain ⟨hq1, hq2⟩ := List.getElem?_eq_some_iff.1 hq
    have := (List.pairwise_iff_getElem.1 hap) (i - 1) i hq1 hl (by omega)
    rw [er, hq2] at this
    exact this
  -- the two ends separately
  have A : ∀ a, a = fitStart rate r.1 r.2 (if 0 < i then (l[i - 1]?).map (fun (q : Nat × Nat) => (q.2 : Int)) else none) →
      0 ≤ a ∧ a ≤ r.1 ∧ (∀ q, 0 < i → l[i - 1]? = some q → (q.2 : Int) ≤ a) ∧
      (a = r.1 - rate * (r.2 + 1 - r.1) ∨ (r.1 - rate * (r.2 + 1 - r.1) < a ∧
          (a = 0 ∨ ∃ q, 0 < i ∧ l[i - 1]? = some q ∧ a = q.2))) := by
    intro a ha
    by_cases h0 : 0 < i
    · rw [if_pos h0] at ha
      have hq : l[i - 1]? = some (l[i - 1]'(by omega)) := List.getElem?_eq_getElem _
      rw [hq] at ha
      have hp := hprev _ h0 hq
      simp only [Option.map_some, fitStart] at ha
      rw [if_pos (by omega)] at ha
      set d := rate * ((r.2 : Int) + 1 - r.1) with hd
      clear_value d
      refine ⟨by omega, by omega, ?_, ?_⟩
      · intro q _ hq'
        rw [hq] at hq'
        cases hq'
        omega
      · by_cases ht : a = (r.1 : Int) - d
        · exact Or.inl ht
        · refine Or.inr ⟨by omega, ?_⟩
          by_cases hz : a = 0
          · exact Or.inl hz
          · exact Or.inr ⟨_, h0, hq, by omega⟩
    · rw [if_neg h0] at ha
      simp only [fitStart] at ha
      set d := rate * ((r.2 : Int) + 1 - r.1) with hd
      clear_value d
      refine ⟨by omega, by omega, fun q h => absurd h h0, ?_⟩
      by_cases ht : a = (r.1 : Int) - d
      · exact Or.inl ht
      · exact Or.inr ⟨by omega, Or.inl (by omega)⟩
  have B : ∀ b, b = fitStop rate n r.1 r.2 (if i < l.length - 1 then (l[i + 1]?).map (fun (q : Nat × Nat) => (q.1 : Int)) else none) →
      (r.2 : Int) < b ∧ b ≤ n ∧ (∀ q, l[i + 1]? = some q → b ≤ q.1) ∧
      (b = r.2 + 1 + rate * (r.2 + 1 - r.1) ∨ (b < r.2 + 1 + rate * (r.2 + 1 - r.1) ∧
          (b = n ∨ ∃ q, l[i + 1]? = some q ∧ b = q.1))) := by
    intro b hb
    by_cases h0 : i < l.length - 1
    · rw [if_pos h0] at hb
      have hq : l[i + 1]? = some (l[i + 1]'(by omega)) := List.getElem?_eq_getElem _
      rw [hq] at hb
      have hp := (hnext _ hq).1
      simp only [Option.map_some, fitStop] at hb
      rw [if_pos (by omega)] at hb
      set d := rate * ((r.2 : Int) + 1 - r.1) with hd
      clear_value d
      refine ⟨by omega, by omega, ?_, ?_⟩
      · intro q hq'
        rw [hq] at hq'
        cases hq'
        omega
      · by_cases ht : b = (r.2 : Int) + 1 + d
        · exact Or.inl ht
        · refine Or.inr ⟨by omega, ?_⟩
          by_cases hz : b = n
          · exact Or.inl hz
          · exact Or.inr ⟨_, hq, by omega⟩
    · rw [if_neg h0] at hb
      simp only [fitStop] at hb
      set d := rate * ((r.2 : Int) + 1 - r.1) with hd
      clear_value d
      refine ⟨by omega, by omega, fun q h => absurd (hnext q h).2 h0, ?_⟩
      by_cases ht : b = (r.2 : Int) + 1 + d
      · exact Or.inl ht
      · exact Or.inr ⟨by omega, Or.inl (by omega)⟩
  obtain ⟨a1, a2, a3, a4⟩ := A _ rfl
  obtain ⟨b1, b2, b3, b4⟩ := B _ rfl
  exact ⟨a1, a2, b1, b2, b3, a3, a4, b4⟩

/-- **C118** With a rate of 0 the enlarged ranges are the peaks themselves, both ends included: the second end is then the
last sample of the peak, and not the one after it. -/
theorem C118_rate_zero (len : Int) (l : List (Nat × Nat)) :
    enlarged 0 len l = .ok (l.map fun (r : Nat × Nat) => ((r.1 : Int), (r.2 : Int))) := rfl

/-! ## The whole operator -/

/-- **C116, C117** The result of the operator on a spectrum: null when no sample of the (smoothed) flux is above its level, and
otherwise the inner runs of the samples above their level, possibly none, with one range for the fit per run. -/
theorem C117_compute (p : Prm K) (axis flux : List K) (hinc : SAxis.Increasing axis) (hlen : flux.length = axis.length)
    (hwin : 0 < p.win) (hlast : LastNear p axis) (hhalf : 0 ≤ p.half) :
    ∃ (smooth lev : List K) (peaks : List (Nat × Nat)) (out : Option (List (Nat × Nat) × List (Int × Int))), smooth.length = flux.length ∧
      (if p.half = 0 then smooth = flux else ∃ b, Flux.applyMedianSmooth p.half flux = .ok (b, smooth)) ∧
      (∀ (i : Nat) x v, axis[i]? = some x → lev[i]? = some v → IsLevel p (near axis smooth p.win x) v) ∧
      lev.length = flux.length ∧
      Runs (fun (i : Nat) => ∃ f v, smooth[i]? = some f ∧ lev[i]? = some v ∧ v < f) peaks ∧
      compute p axis flux = .ok out ∧
      (out = none ↔ peaks = []) ∧
      (∀ kept enl, out = some (kept, enl) → kept = peaks.filter (fun r => decide (Inner smooth r)) ∧
        enlarged p.rate axis.length kept = .ok enl) := by
  have hs : ∃ smooth, (if p.half = 0 then (.ok flux : Res (List K)) else Flux.applyMedianSmooth p.half flux >>= fun t => .ok t.2)
      = .ok smooth ∧ smooth.length = flux.length ∧
      (if p.half = 0 then smooth = flux else ∃ b, Flux.applyMedianSmooth p.half flux = .ok (b, smooth)) := by
    by_cases h0 : p.half = 0
    · rw [if_pos h0]
      exact ⟨flux, rfl, rfl, by rw [if_pos h0]⟩
    · rw [if_neg h0]
      by_cases hb : (flux.length : Int) ≤ p.half
      · have := Flux.C38_no_op p.half flux (Or.inr hb)
        rw [this.2, Res.bind_ok]
        exact ⟨flux, rfl, rfl, by rw [if_neg h0]; exact ⟨_, rfl⟩⟩
      · obtain ⟨h, hh⟩ : ∃ h : Nat, p.half = h := ⟨p.half.toNat, by omega⟩
        rw [hh] at h0 hb ⊢
        obtain ⟨t, h1, h2, _⟩ := Flux.C38_median h flux (by omega) (by omega)
        rw [h1, Res.bind_ok]
        exact ⟨t, rfl, h2, by rw [if_neg h0]; exact ⟨_, rfl⟩⟩
  obtain ⟨smooth, e1, hsl, hsm⟩ := hs
  obtain ⟨lev, peaks, hll, hlev, hfp, hruns⟩ := C116_runs p axis smooth hinc (by omega) hwin hlast
  have hin : Inside smooth.length peaks := by
    intro r hr
    have ho := hruns.ordered r hr
    obtain ⟨f, v, h1, _⟩ := (hruns.cover r.2).2 ⟨r, hr, ho, le_refl _⟩
    exact ⟨ho, (List.getElem?_eq_some_iff.1 h1).1⟩
  by_cases hp : peaks.length = 0
  · refine ⟨smooth, lev, peaks, none, hsl, hsm, hlev, by omega, hruns, ?_, by simpa using hp, by simp⟩
    unfold compute
    rw [e1, Res.bind_ok, hfp, Res.bind_ok, if_pos hp]
  · have he : ∃ enl, enlarged p.rate axis.length (peaks.filter fun r => decide (Inner smooth r)) = .ok enl := by
      by_cases hr : p.rate = 0
      · rw [hr]; exact ⟨_, rfl⟩
      · obtain ⟨e, h, _⟩ := enlarged_get p.rate axis.length (peaks.filter fun r => decide (Inner smooth r)) hr
        exact ⟨e, h⟩
    obtain ⟨enl, he⟩ := he
    refine ⟨smooth, lev, peaks, some (peaks.filter (fun r => decide (Inner smooth r)), enl), hsl, hsm, hlev, by omega, hruns, ?_, ?_, ?_⟩
    · unfold compute
      rw [e1, Res.bind_ok, hfp, Res.bind_ok, if_neg hp, C117_kept smooth peaks hin, Res.bind_ok, he, Res.bind_ok]
    · constructor
      · intro h; simp at h
      · intro h; rw [h] at hp; simp at hp
    · intro kept enl' h
      cases h
      exact ⟨rfl, he⟩

/-- The kept runs are still apart and in the spectrum, so that C118 applies to them. -/
theorem C118_applies {Q : Nat → Prop} {out : List (Nat × Nat)} (n : Nat) (h : Runs Q out) (hb : ∀ i, Q i → i < n)
    (f : Nat × Nat → Bool) : Inside n (out.filter f) ∧ (out.filter f).Pairwise fun r s => r.2 + 1 < s.1 := by
  refine ⟨?_, h.apart.filter _⟩
  intro r hr
  have hm := (List.mem_filter.1 hr).1
  exact ⟨h.ordered r hm, hb _ ((h.cover r.2).2 ⟨r, hm, h.ordered r hm, le_refl _⟩)⟩

example : redefineBorders ([0, 5, 1, 4, 7, 1, 9] : List ℚ) [(1, 1), (3, 4), (6, 6)] = .ok [(3, 4)] ∧
    enlarged 1 7 [(1, 1), (4, 4)] = .ok [(0, 3), (3, 6)] ∧ enlarged 3 9 [(1, 1), (4, 4)] = .ok [(0, 4), (1, 8)] := by
  decide +kernel

example : (compute (⟨6, 2, 0, 1, 0⟩ : Prm ℚ) [0, 10, 11, 12, 22, 23] [0, 1, 9, 2, 0, 5] = .ok (some ([(2, 2)], [(1, 4)]))) := by
  decide +kernel

end Peaks
end Amazed
