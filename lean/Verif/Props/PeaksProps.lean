import Verif.Model.Peaks
import Verif.Props.SmoothProps
import Verif.Props.SpectralAxisProps
import Verif.Props.MedianContProps

set_option linter.unusedSectionVars false
set_option linter.unusedVariables false

/-! # Peak detection: levels and runs (C115, C116) -/

namespace Amazed
namespace Peaks

variable {K : Type} [Field K] [LinearOrder K] [IsStrictOrderedRing K]

/-! ## Specification -/

/-- The flux samples that decide the level of a sample at the wavelength `x`: those of wavelength in `[x - win/2, x + win/2)`,
the last sample of the spectrum never being one of them. -/
def near (axis flux : List K) (win x : K) : List K :=
  (((axis.zip flux).dropLast).filter fun a => decide (x - win / 2 ≤ a.1 ∧ a.1 < x + win / 2)).map (·.2)

/-- The middle value of a list, the mean of the two middle values if there are two. -/
def IsMiddle (w : List K) (m : K) : Prop :=
  ∃ s, Median.SortedOf w s ∧ ∃ a b, s[(w.length - 1) / 2]? = some a ∧ s[w.length / 2]? = some b ∧ m = (a + b) / 2

/-- The level of a sample: median of the near samples, plus half the cut times their median absolute deviation and the
noise offset. -/
def IsLevel (p : Prm K) (w : List K) (v : K) : Prop :=
  ∃ m d, Flux.IsMedian w m ∧ IsMiddle (w.map fun y => |y - m|) d ∧ v = m + 1 / 2 * p.cut * (d + p.offset)

/-- `out` are the maximal runs of the indices that satisfy `Q`, in increasing order: they cover these indices and no other,
and two of them are separated by at least one index. -/
structure Runs (Q : Nat → Prop) (out : List (Nat × Nat)) : Prop where
  cover : ∀ i, Q i ↔ ∃ r ∈ out, r.1 ≤ i ∧ i ≤ r.2
  ordered : ∀ r ∈ out, r.1 ≤ r.2
  apart : out.Pairwise fun r s => r.2 + 1 < s.1

/-! ## Median absolute deviation -/

theorem xmad_ok (l : List K) (m : K) (hne : l ≠ []) : ∃ d, xmad l m = .ok d ∧ IsMiddle (l.map fun y => |y - m|) d := by
  have hpos : 0 < l.length := List.length_pos_iff.2 hne
  set w := l.map fun y => |y - m| with hw
  have hwl : w.length = l.length := by simp [hw]
  have hs : Median.SortedOf w (w.insertionSort (· ≤ ·)) :=
    ⟨List.perm_insertionSort _ _, List.pairwise_insertionSort _ _⟩
  have hsl : (w.insertionSort (· ≤ ·)).length = l.length := by rw [List.length_insertionSort, hwl]
  unfold xmad
  simp only []
  rw [← hw]
  set s := w.insertionSort (· ≤ ·) with hsd
  clear_value s
  by_cases he : 2 * (l.length / 2) = l.length
  · rw [if_pos he]
    have h1 : (l.length - 1) / 2 < s.length := by omega
    have h2 : l.length / 2 < s.length := by omega
    have e1 : Res.atZ s ((l.length / 2 : Nat) - 1 : Int) = .ok s[(l.length - 1) / 2] := by
      unfold Res.atZ
      rw [if_neg (by omega)]
      have : (((l.length / 2 : Nat) : Int) - 1).toNat = (l.length - 1) / 2 := by omega
      rw [this, Res.at_of_lt h1]
    rw [e1, Res.bind_ok, Res.at_of_lt h2, Res.bind_ok]
    exact ⟨_, rfl, s, hs, s[(l.length - 1) / 2], s[l.length / 2], by rw [hwl]; exact List.getElem?_eq_getElem h1,
      by rw [hwl]; exact List.getElem?_eq_getElem h2, by ring⟩
  · rw [if_neg he]
    have h2 : l.length / 2 < s.length := by omega
    have e : (l.length - 1) / 2 = l.length / 2 := by omega
    rw [Res.at_of_lt h2]
    exact ⟨_, rfl, s, hs, s[l.length / 2], s[l.length / 2], by rw [hwl, e]; exact List.getElem?_eq_getElem h2,
      by rw [hwl]; exact List.getElem?_eq_getElem h2, by ring⟩

theorem xmad_empty (m : K) : xmad ([] : List K) m = .ub := by
  simp [xmad, Res.atZ]

theorem find_ok (l : List K) (hne : l ≠ []) : ∃ m, Median.find l = .ok m ∧ Flux.IsMedian l m := by
  have hs := Median.sortedOf_mergeSort l
  have hpos : 0 < l.length := List.length_pos_iff.2 hne
  obtain ⟨h1, h2, h3⟩ := Median.C13_find l _ hs hne
  by_cases ho : l.length % 2 = 1
  · rw [if_pos ho] at h3
    refine ⟨_, h3, _, hs, _, _, List.getElem?_eq_getElem h1, List.getElem?_eq_getElem h2, ?_⟩
    rw [if_neg (by omega)]
    have : (l.length - 1) / 2 = l.length / 2 := by omega
    simp only [this]
  · rw [if_neg ho] at h3
    by_cases hb : l.length ≤ 1000
    · rw [if_pos hb] at h3
      refine ⟨_, h3, _, hs, _, _, List.getElem?_eq_getElem h1, List.getElem?_eq_getElem h2, ?_⟩
      rw [if_pos ⟨by omega, hb⟩]
    · rw [if_neg hb] at h3
      refine ⟨_, h3, _, hs, _, _, List.getElem?_eq_getElem h1, List.getElem?_eq_getElem h2, ?_⟩
      rw [if_neg (by omega)]

/-! ## Windows -/

theorem filter_interval {α : Type} (p : α → Bool) : ∀ (l : List α) (a b : Nat),
    (∀ (k : Nat) (hk : k < l.length), p l[k] = decide (a ≤ k ∧ k < b)) → l.filter p = (l.drop a).take (b - a) := by
  intro l
  induction l with
  | nil => intro a b _; simp
  | cons x xs ih =>
    intro a b h
    have h0 := h 0 (by simp)
    simp only [List.getElem_cons_zero] at h0
    cases a with
    | zero =>
      cases b with
      | zero =>
        have := ih 0 0 (fun k hk => by
          have := h (k + 1) (by simpa using hk)
          simpa using this)
        rw [List.filter_cons_of_neg (by simp [h0])]
        simpa using this
      | succ b =>
        have := ih 0 b (fun k hk => by
          have := h (k + 1) (by simpa using hk)
          simpa using this)
        rw [List.filter_cons_of_pos (by simp [h0])]
        simpa using this
    | succ a =>
      have := ih a (b - 1) (fun k hk => by
          have := h (k + 1) (by simpa using hk)
          simp only [List.getElem_cons_succ] at this
          rw [this]
          congr 1
          apply propext
          omega)
      rw [List.filter_cons_of_neg (by simp [h0]), this]
      simp only [List.drop_succ_cons]
      congr 1
      omega

theorem sub_ok (l : List K) (a b : Nat) (h1 : a ≤ b) (h2 : b ≤ l.length) : sub l a b = .ok ((l.drop a).take (b - a)) := by
  unfold sub
  rw [if_neg (by omega)]

/-- The window of a sample, and the samples in it. -/
theorem window_ok (axis flux : List K) (win : K) (i : Nat) (hinc : SAxis.Increasing axis) (hlen : flux.length = axis.length)
    (hwin : 0 < win) (hi : i < axis.length) :
    ∃ a b, window axis win flux.length i = .ok (a, b) ∧ sub flux a b = .ok (near axis flux win axis[i]) := by
  have hne : axis ≠ [] := by intro h; rw [h] at hi; exact absurd hi (by simp)
  have hhalf : 0 < win / 2 := by linarith
  obtain ⟨a, ha, e1, a1, a2⟩ := SAxis.C36_indexAt axis hinc hne (axis[i] - win / 2)
  obtain ⟨b, hb, e2, b1, b2⟩ := SAxis.C36_indexAt axis hinc hne (axis[i] + win / 2)
  have a2' : axis[i] - win / 2 ≤ axis[a] := by
    rcases a2 with h | ⟨_, h⟩
    · exact h
    · have := h axis[i] (List.getElem_mem hi)
      linarith
  have mono : ∀ (j k : Nat) (hj : j < axis.length) (hk : k < axis.length), j ≤ k → axis[j] ≤ axis[k] := by
    intro j k hj hk hjk
    rcases Nat.lt_or_eq_of_le hjk with h | h
    · exact le_of_lt ((List.pairwise_iff_getElem.1 hinc) j k hj hk h)
    · subst h; exact le_refl _
  have hia : a ≤ i := by
    by_contra h
    have := a1 i hi (by omega)
    linarith
  have hib : a ≤ b := by
    by_contra h
    have h1 := a1 b hb (by omega)
    rcases b2 with h2 | ⟨h2, _⟩
    · linarith
    · omega
  refine ⟨a, b, ?_, ?_⟩
  · unfold window
    rw [Res.at_of_lt hi, Res.bind_ok, e1, Res.bind_ok, e2, Res.bind_ok, hlen, Nat.min_eq_right (by omega)]
  · rw [sub_ok flux a b hib (by omega)]
    unfold near
    have hz : (axis.zip flux).dropLast.length = axis.length - 1 := by
      simp [hlen]
    rw [filter_interval _ _ a b]
    · congr 1
      rw [List.map_take, List.map_drop, List.map_dropLast, List.map_snd_zip (by omega), List.dropLast_eq_take]
      rw [List.drop_take, List.take_take, hlen]
      congr 1
      omega
    · intro k hk
      have hk' : k < axis.length := by omega
      have hk2 : k + 1 < axis.length := by omega
      have eg : ((axis.zip flux).dropLast[k]).1 = axis[k] := by simp
      rw [eg]
      congr 1
      apply propext
      constructor
      · rintro ⟨h1, h2⟩
        constructor
        · by_contra h
          have := a1 k hk' (by omega)
          linarith
        · by_contra h
          rcases b2 with h3 | ⟨h3, _⟩
          · have := mono b k hb hk' (by omega)
            linarith
          · omega
      · rintro ⟨h1, h2⟩
        exact ⟨le_trans a2' (mono a k ha hk' h1), b1 k hk' h2⟩

/-- A sample that is not the last one is near itself. -/
theorem near_self (axis flux : List K) (win : K) (i : Nat) (hlen : flux.length = axis.length) (hwin : 0 < win)
    (hi : i + 1 < axis.length) : near axis flux win axis[i] ≠ [] := by
  have hhalf : 0 < win / 2 := by linarith
  have hm : (axis[i], flux[i]'(by omega)) ∈ (axis.zip flux).dropLast := by
    have hz : i < (axis.zip flux).dropLast.length := by simp [hlen]; omega
    have : (axis.zip flux).dropLast[i] = (axis[i], flux[i]'(by omega)) := by simp
    rw [← this]
    exact List.getElem_mem hz
  unfold near
  intro h
  have hmem : (axis[i], flux[i]'(by omega)) ∈
      ((axis.zip flux).dropLast).filter fun a => decide (axis[i] - win / 2 ≤ a.1 ∧ a.1 < axis[i] + win / 2) := by
    rw [List.mem_filter]
    refine ⟨hm, ?_⟩
    simp only [decide_eq_true_eq]
    constructor <;> linarith
  rw [List.map_eq_nil_iff] at h
  rw [h] at hmem
  simp at hmem

theorem level_ok (p : Prm K) (axis flux : List K) (i : Nat) (hinc : SAxis.Increasing axis) (hlen : flux.length = axis.length)
    (hwin : 0 < p.win) (hi : i < axis.length) (hne : near axis flux p.win axis[i] ≠ []) :
    ∃ v, level p axis flux i = .ok v ∧ IsLevel p (near axis flux p.win axis[i]) v := by
  obtain ⟨a, b, e1, e2⟩ := window_ok axis flux p.win i hinc hlen hwin hi
  obtain ⟨m, e3, h3⟩ := find_ok _ hne
  obtain ⟨d, e4, h4⟩ := xmad_ok _ m hne
  refine ⟨_, ?_, m, d, h3, h4, rfl⟩
  unfold level
  rw [e1, Res.bind_ok, e2, Res.bind_ok, e3, Res.bind_ok, e4, Res.bind_ok]

theorem level_empty (p : Prm K) (axis flux : List K) (i : Nat) (hinc : SAxis.Increasing axis)
    (hlen : flux.length = axis.length) (hwin : 0 < p.win) (hi : i < axis.length) (hne : near axis flux p.win axis[i] = []) :
    level p axis flux i = .ub := by
  obtain ⟨a, b, e1, e2⟩ := window_ok axis flux p.win i hinc hlen hwin hi
  unfold level
  rw [e1, Res.bind_ok, e2, Res.bind_ok, hne, Median.C13_find_empty_is_ub, Res.bind_ub]

/-! ## Runs -/

theorem runs_ok (s : Nat) (pts : List Nat) (hinc : pts.Pairwise (· < ·)) (hb : ∀ i ∈ pts, i < s) :
    ∃ out, runs s pts = .ok out ∧ Runs (fun i => i ∈ pts) out := by
  unfold runs
  by_cases h0 : pts.length = 0
  · rw [if_pos h0]
    have : pts = [] := List.length_eq_zero_iff.1 h0
    subst this
    exact ⟨[], rfl, ⟨by simp, by simp, List.Pairwise.nil⟩⟩
  rw [if_neg h0]
  simp only []
  have hlen : pts.length ≤ s := by
    have h1 : pts.Nodup := hinc.imp (fun h => Nat.ne_of_lt h)
    have h2 : pts ⊆ List.range s := fun i hi => List.mem_range.2 (hb i hi)
    have := (h1.subperm h2).length_le
    simpa using this
  set points := pts ++ List.replicate (s + 1 - pts.length) 0 with hp
  have hpl : points.length = s + 1 := by simp [hp]; omega
  have hget : ∀ (i : Nat) (hi : i < pts.length), Res.at_ points i = .ok pts[i] := by
    intro i hi
    rw [Res.at_of_lt (by omega)]
    simp [hp, hi]
  have hlast : Res.at_ points pts.length = .ok 0 := by
    rw [Res.at_of_lt (by omega)]
    simp [hp]
  clear_value points
  rw [hget 0 (by omega), Res.bind_ok]
  have hmono : ∀ (i j : Nat) (hi : i < pts.length) (hj : j < pts.length), i < j → pts[i] < pts[j] :=
    fun i j hi hj hij => (List.pairwise_iff_getElem.1 hinc) i j hi hj hij
  -- the state after the first `k` points
  let P : Nat → Nat × Nat × List (Nat × Nat) → Prop := fun k st =>
    (k ≤ pts.length → (∃ h : k - 1 < pts.length, st.2.1 = pts[k - 1]) ∧ st.1 ≤ st.2.1 ∧
      (∀ i, i ∈ pts.take k ↔ (∃ r ∈ st.2.2, r.1 ≤ i ∧ i ≤ r.2) ∨ (st.1 ≤ i ∧ i ≤ st.2.1)) ∧
      (∀ r ∈ st.2.2, r.1 ≤ r.2 ∧ r.2 + 1 < st.1) ∧ st.2.2.Pairwise (fun r s => r.2 + 1 < s.1)) ∧
    (pts.length < k → Runs (fun i => i ∈ pts) st.2.2)
  have hstart : P 1 (pts[0], pts[0], []) := by
    refine ⟨fun _ => ⟨⟨by omega, rfl⟩, le_refl _, ?_, by simp, List.Pairwise.nil⟩, fun h => absurd h (by omega)⟩
    intro i
    have : pts.take 1 = [pts[0]] := by
      rw [List.take_one, List.head?_eq_getElem?, List.getElem?_eq_getElem (by omega : 0 < pts.length)]; rfl
    rw [this]
    simp only [List.mem_singleton, List.not_mem_nil, false_and, exists_false, false_or]
    omega
  have hrun := Res.foldN_inv (f := runStep points) P pts.length 1 (pts[0], pts[0], []) hstart ?_
  · obtain ⟨st, e, hP⟩ := hrun
    rw [e, Res.bind_ok]
    exact ⟨_, rfl, hP.2 (by omega)⟩
  intro k st hk1 hk2 hPk
  obtain ⟨⟨hc, ec⟩, hle, hcov, hcl, hpw⟩ := hPk.1 (by omega)
  -- closing the open run
  have hclosed : ∀ i, i ∈ pts.take k ↔ ∃ r ∈ st.2.2 ++ [(st.1, st.2.1)], r.1 ≤ i ∧ i ≤ r.2 := by
    intro i
    rw [hcov i]
    simp only [List.mem_append, List.mem_singleton]
    constructor
    · rintro (⟨r, h1, h2⟩ | h)
      · exact ⟨r, Or.inl h1, h2⟩
      · exact ⟨_, Or.inr rfl, h⟩
    · rintro ⟨r, h1 | h1, h2⟩
      · exact Or.inl ⟨r, h1, h2⟩
      · subst h1; exact Or.inr h2
  have hpwc : (st.2.2 ++ [(st.1, st.2.1)]).Pairwise (fun r s => r.2 + 1 < s.1) := by
    rw [List.pairwise_append]
    refine ⟨hpw, List.pairwise_singleton _ _, ?_⟩
    intro r hr q hq
    rw [List.mem_singleton] at hq
    subst hq
    exact (hcl r hr).2
  have hordc : ∀ r ∈ st.2.2 ++ [(st.1, st.2.1)], r.1 ≤ r.2 := by
    intro r hr
    rw [List.mem_append, List.mem_singleton] at hr
    rcases hr with h | h
    · exact (hcl r h).1
    · subst h; exact hle
  unfold runStep
  by_cases hkl : k < pts.length
  · rw [hget k hkl, Res.bind_ok]
    have hgt : st.2.1 < pts[k] := by rw [ec]; exact hmono _ _ _ _ (by omega)
    have htake : ∀ i, i ∈ pts.take (k + 1) ↔ i ∈ pts.take k ∨ i = pts[k] := by
      intro i
      rw [List.take_add_one, List.getElem?_eq_getElem hkl, List.mem_append]
      simp only [Option.toList_some, List.mem_singleton]
    by_cases hcont : (pts[k] : Int) - 1 = st.2.1
    · rw [if_pos hcont]
      refine ⟨_, rfl, fun _ => ⟨⟨by omega, by simp⟩, by simp only; omega, ?_, hcl, hpw⟩, fun h => absurd h (by omega)⟩
      intro i
      rw [htake i, hcov i]
      simp only
      constructor
      · rintro ((h | h) | h)
        · exact Or.inl h
        · right; omega
        · right; omega
      · rintro (h | h)
        · exact Or.inl (Or.inl h)
        · by_cases h2 : i ≤ st.2.1
          · exact Or.inl (Or.inr ⟨h.1, h2⟩)
          · right; omega
    · rw [if_neg hcont]
      refine ⟨_, rfl, fun _ => ⟨⟨by omega, by simp⟩, le_refl _, ?_, ?_, hpwc⟩, fun h => absurd h (by omega)⟩
      · intro i
        rw [htake i, hclosed i]
        simp only
        constructor
        · rintro (h | h)
          · exact Or.inl h
          · right; omega
        · rintro (h | h)
          · exact Or.inl h
          · right; omega
      · intro r hr
        refine ⟨hordc r hr, ?_⟩
        simp only
        rw [List.mem_append, List.mem_singleton] at hr
        rcases hr with h | h
        · have := (hcl r h).2
          omega
        · subst h; simp only; omega
  · have hke : k = pts.length := by omega
    subst hke
    rw [hlast, Res.bind_ok, if_neg (by omega)]
    refine ⟨_, rfl, fun h => absurd h (by omega), fun _ => ⟨?_, hordc, hpwc⟩⟩
    intro i
    rw [← hclosed i, List.take_length]

theorem mem_above (flux lev : List K) (i : Nat) :
    i ∈ above flux lev ↔ ∃ f v, flux[i]? = some f ∧ lev[i]? = some v ∧ v < f := by
  unfold above
  rw [List.mem_filter, List.mem_range]
  constructor
  · rintro ⟨hi, h⟩
    rw [List.getElem?_eq_getElem hi] at h
    cases hl : lev[i]? with
    | none => rw [hl] at h; simp at h
    | some v =>
      rw [hl] at h
      exact ⟨flux[i], v, List.getElem?_eq_getElem hi, rfl, by simpa using h⟩
  · rintro ⟨f, v, h1, h2, h3⟩
    refine ⟨(List.getElem?_eq_some_iff.1 h1).1, ?_⟩
    rw [h1, h2]
    simpa using h3

theorem above_sorted (flux lev : List K) : (above flux lev).Pairwise (· < ·) := by
  unfold above
  exact List.pairwise_lt_range.filter _

/-! ## C115, C116 -/

/-- The last sample has a neighbour: some earlier sample lies within half a window. -/
def LastNear (p : Prm K) (axis : List K) : Prop :=
  ∀ x, axis.getLast? = some x → ∃ y ∈ axis.dropLast, x - p.win / 2 ≤ y

theorem near_last (p : Prm K) (axis flux : List K) (hinc : SAxis.Increasing axis) (hlen : flux.length = axis.length)
    (hwin : 0 < p.win) (hne : 0 < axis.length) :
    near axis flux p.win (axis[axis.length - 1]'(by omega)) ≠ [] ↔ LastNear p axis := by
  have hg : axis.getLast? = some (axis[axis.length - 1]'(by omega)) := by
    rw [List.getLast?_eq_getElem?, List.getElem?_eq_getElem (by omega)]
  have hhalf : 0 < p.win / 2 := by linarith
  unfold near LastNear
  rw [hg, ne_eq, List.map_eq_nil_iff, List.filter_eq_nil_iff]
  push Not
  have hdl : (axis.zip flux).dropLast.map (·.1) = axis.dropLast := by
    rw [List.map_dropLast, List.map_fst_zip (by omega)]
  constructor
  · rintro ⟨a, h1, h2⟩ x hx
    cases hx
    refine ⟨a.1, ?_, ?_⟩
    · rw [← hdl]; exact List.mem_map_of_mem h1
    · simp only [decide_eq_true_eq] at h2
      exact h2.1
  · intro h
    obtain ⟨y, h1, h2⟩ := h _ rfl
    rw [← hdl, List.mem_map] at h1
    obtain ⟨a, h3, rfl⟩ := h1
    refine ⟨a, h3, ?_⟩
    simp only [decide_eq_true_eq]
    refine ⟨h2, ?_⟩
    have hm : a.1 ∈ axis.dropLast := by rw [← hdl]; exact List.mem_map_of_mem h3
    obtain ⟨k, hk, ek⟩ := List.getElem_of_mem hm
    rw [← ek, List.getElem_dropLast]
    have hk' : k < axis.length - 1 := by simpa using hk
    have := (List.pairwise_iff_getElem.1 hinc) k (axis.length - 1) (by omega) (by omega) (by omega)
    linarith

/-- **C115, C116** On a strictly increasing axis whose last sample has a neighbour within half a window, peak detection is defined:
there is one level per sample, made of the median and the median absolute deviation of the near samples, and the ranges it
returns are the maximal runs of samples strictly above their level, in increasing order. -/
theorem C116_runs (p : Prm K) (axis flux : List K) (hinc : SAxis.Increasing axis) (hlen : flux.length = axis.length)
    (hwin : 0 < p.win) (hlast : LastNear p axis) :
    ∃ (lev : List K) (out : List (Nat × Nat)), lev.length = flux.length ∧
      (∀ (i : Nat) x v, axis[i]? = some x → lev[i]? = some v → IsLevel p (near axis flux p.win x) v) ∧
      findPossiblePeaks p axis flux = .ok out ∧
      Runs (fun (i : Nat) => ∃ f v, flux[i]? = some f ∧ lev[i]? = some v ∧ v < f) out := by
  have hne : ∀ (i : Nat) (hi : i < axis.length), near axis flux p.win axis[i] ≠ [] := by
    intro i hi
    by_cases h : i + 1 < axis.length
    · exact near_self axis flux p.win i hlen hwin h
    · have e : i = axis.length - 1 := by omega
      subst e
      exact (near_last p axis flux hinc hlen hwin (by omega)).2 hlast
  have hl : ∀ i, i < flux.length → ∃ v, level p axis flux i = .ok v := by
    intro i hi
    obtain ⟨v, h1, _⟩ := level_ok p axis flux i hinc hlen hwin (by omega) (hne i (by omega))
    exact ⟨v, h1⟩
  have ht : ∃ lev, Res.tab (level p axis flux) flux.length = .ok lev := by
    obtain ⟨lev, h, _⟩ := MedCont.tab_total (P := fun _ => True) flux.length (fun i hi => by
      obtain ⟨v, hv⟩ := hl i hi
      exact ⟨v, hv, trivial⟩)
    exact ⟨lev, h⟩
  obtain ⟨lev, hlev⟩ := ht
  have hll := Res.tab_length _ hlev
  obtain ⟨out, ho, hr⟩ := runs_ok flux.length (above flux lev) (above_sorted _ _) (by
    intro i hi
    obtain ⟨f, v, h, _⟩ := (mem_above flux lev i).1 hi
    exact (List.getElem?_eq_some_iff.1 h).1)
  refine ⟨lev, out, hll, ?_, ?_, ?_⟩
  · intro i x v hx hv
    obtain ⟨hi, ex⟩ := List.getElem?_eq_some_iff.1 hx
    obtain ⟨a, h1, h2⟩ := Res.tab_get _ hlev i (by omega)
    obtain ⟨v', h3, h4⟩ := level_ok p axis flux i hinc hlen hwin hi (hne i hi)
    rw [hv] at h1
    cases h1
    rw [h2] at h3
    cases h3
    rw [← ex]
    exact h4
  · unfold findPossiblePeaks
    rw [hlev, Res.bind_ok, ho]
  · have : (fun (i : Nat) => i ∈ above flux lev) = fun (i : Nat) => ∃ f v, flux[i]? = some f ∧ lev[i]? = some v ∧ v < f :=
      funext fun i => propext (mem_above flux lev i)
    rw [← this]
    exact hr

theorem Runs.nil_iff {Q : Nat → Prop} {out : List (Nat × Nat)} (h : Runs Q out) : out = [] ↔ ∀ i, ¬ Q i := by
  constructor
  · intro e i hi
    obtain ⟨r, hr, _⟩ := (h.cover i).1 hi
    rw [e] at hr
    simp at hr
  · intro hq
    cases out with
    | nil => rfl
    | cons r rs =>
      exact absurd ((h.cover r.1).2 ⟨r, by simp, le_refl _, h.ordered r (by simp)⟩) (hq _)

theorem Runs.tail {Q : Nat → Prop} {r : Nat × Nat} {rs : List (Nat × Nat)} (h : Runs Q (r :: rs)) :
    Runs (fun i => Q i ∧ r.2 < i) rs := by
  have hp := List.pairwise_cons.1 h.apart
  refine ⟨?_, fun q hq => h.ordered q (List.mem_cons_of_mem _ hq), hp.2⟩
  intro i
  rw [h.cover i]
  constructor
  · rintro ⟨⟨q, hq, h1, h2⟩, h3⟩
    rcases List.mem_cons.1 hq with e | e
    · subst e; omega
    · exact ⟨q, e, h1, h2⟩
  · rintro ⟨q, hq, h1, h2⟩
    have := hp.1 q hq
    exact ⟨⟨q, List.mem_cons_of_mem _ hq, h1, h2⟩, by omega⟩

theorem Runs.head_le {Q : Nat → Prop} {r : Nat × Nat} {rs : List (Nat × Nat)} (h : Runs Q (r :: rs)) (i : Nat) (hi : Q i) :
    r.1 ≤ i := by
  have hp := List.pairwise_cons.1 h.apart
  have := h.ordered r (by simp)
  obtain ⟨q, hq, h1, _⟩ := (h.cover i).1 hi
  rcases List.mem_cons.1 hq with e | e
  · subst e; exact h1
  · have := hp.1 q e
    omega

theorem Runs.head_end {Q : Nat → Prop} {r : Nat × Nat} {rs : List (Nat × Nat)} (h : Runs Q (r :: rs)) : ¬ Q (r.2 + 1) := by
  have hp := List.pairwise_cons.1 h.apart
  intro hq
  obtain ⟨q, hq, h1, h2⟩ := (h.cover _).1 hq
  rcases List.mem_cons.1 hq with e | e
  · subst e; omega
  · have := hp.1 q e
    omega

/-- **C116** The maximal runs of a set of indices are unique: the property above determines the result. -/
theorem C116_runs_unique {Q : Nat → Prop} {out out' : List (Nat × Nat)} (h : Runs Q out) (h' : Runs Q out') : out = out' := by
  induction out generalizing Q out' with
  | nil => exact ((h'.nil_iff).2 ((h.nil_iff).1 rfl)).symm
  | cons r rs ih =>
    cases out' with
    | nil => exact absurd ((h'.nil_iff).1 rfl) (fun hn => by have := (h.nil_iff).2 hn; simp at this)
    | cons r' rs' =>
      have o := h.ordered r (by simp)
      have o' := h'.ordered r' (by simp)
      have q1 : Q r.1 := (h.cover _).2 ⟨r, by simp, le_refl _, o⟩
      have q1' : Q r'.1 := (h'.cover _).2 ⟨r', by simp, le_refl _, o'⟩
      have e1 : r.1 = r'.1 := le_antisymm (h.head_le _ q1') (h'.head_le _ q1)
      have e2 : r.2 = r'.2 := by
        rcases lt_trichotomy r.2 r'.2 with hl | hl | hl
        · exact absurd ((h'.cover (r.2 + 1)).2 ⟨r', by simp, by omega, by omega⟩) h.head_end
        · exact hl
        · exact absurd ((h.cover (r'.2 + 1)).2 ⟨r, by simp, by omega, by omega⟩) h'.head_end
      have er : r = r' := Prod.ext e1 e2
      subst er
      rw [ih h.tail h'.tail]

/-- **C115** Without such a neighbour (a window narrower than twice the last sampling step, or a single sample) the window of the
last sample is empty and its median is undefined behaviour. -/
theorem C115_isolated_last (p : Prm K) (axis flux : List K) (hinc : SAxis.Increasing axis) (hlen : flux.length = axis.length)
    (hwin : 0 < p.win) (hne : axis ≠ []) (hlast : ¬ LastNear p axis) : findPossiblePeaks p axis flux = .ub := by
  have hpos : 0 < axis.length := List.length_pos_iff.2 hne
  have hn := (not_congr (near_last p axis flux hinc hlen hwin hpos)).2 hlast
  rw [not_not] at hn
  have hu := level_empty p axis flux (axis.length - 1) hinc hlen hwin (by omega) hn
  have hl : ∀ i, i < flux.length - 1 → ∃ v, level p axis flux i = .ok v ∧ True := by
    intro i hi
    obtain ⟨v, h1, _⟩ := level_ok p axis flux i hinc hlen hwin (by omega) (near_self axis flux p.win i hlen hwin (by omega))
    exact ⟨v, h1, trivial⟩
  obtain ⟨lev, h1, _⟩ := MedCont.tab_total (P := fun _ => True) (flux.length - 1) hl
  have : Res.tab (level p axis flux) flux.length = .ub := by
    have e : flux.length = (flux.length - 1) + 1 := by omega
    rw [e]
    unfold Res.tab
    rw [h1, Res.bind_ok]
    have : flux.length - 1 = axis.length - 1 := by omega
    rw [this, hu, Res.bind_ub]
  unfold findPossiblePeaks
  rw [this, Res.bind_ub]

/-- **C115** The flux of the last sample takes part in no level: it can be changed without changing any of them. -/
theorem C115_last_ignored (axis flux flux' : List K) (win x : K) (hl : flux.length = axis.length)
    (hl' : flux'.length = axis.length) (heq : flux.dropLast = flux'.dropLast) :
    near axis flux win x = near axis flux' win x := by
  unfold near
  have : (axis.zip flux).dropLast = (axis.zip flux').dropLast := by
    have h : ∀ (f : List K), f.length = axis.length → (axis.zip f).dropLast = axis.dropLast.zip f.dropLast := by
      intro f hf
      rw [List.dropLast_eq_take, List.dropLast_eq_take, List.dropLast_eq_take, List.zip, List.take_zipWith]
      simp [hf]
    rw [h flux hl, h flux' hl', heq]
  rw [this]

/-- The hypotheses and conclusions on a spectrum of six samples: two peaks, the second one being the last sample. -/
example : SAxis.Increasing ([0, 10, 11, 12, 22, 23] : List ℚ) ∧ LastNear (⟨6, 2, 0, 0, 0⟩ : Prm ℚ) [0, 10, 11, 12, 22, 23] ∧
    findPossiblePeaks (⟨6, 2, 0, 0, 0⟩ : Prm ℚ) [0, 10, 11, 12, 22, 23] [0, 1, 9, 2, 0, 5] = .ok [(2, 2), (5, 5)] := by
  refine ⟨by unfold SAxis.Increasing; decide +kernel, ?_, by decide +kernel⟩
  intro x hx
  cases hx
  exact ⟨22, by decide +kernel, by norm_num⟩

end Peaks
end Amazed
