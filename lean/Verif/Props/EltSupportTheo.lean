import Verif.Props.EltSupportProps
import Verif.Props.SpectralAxisProps
import Verif.Props.MeiksinProps
import Mathlib.Tactic.NormNum

set_option linter.unusedVariables false
set_option linter.unusedSectionVars false

/-! # C71: theoretical support of a line and supports of an element -/

namespace Amazed
namespace EltSup

variable {K : Type} [Field K] [LinearOrder K] [IsStrictOrderedRing K]

/-- The window of a line, cut at the wavelength range. -/
def lo (lr : Range K) (g : LineGeom K) : K := max lr.b (g.mu - g.win / 2)
def hi (lr : Range K) (g : LineGeom K) : K := min lr.e (g.mu + g.win / 2)

theorem indexRange_spec (axis : List K) (hs : SAxis.Increasing axis) (hne : axis ≠ []) (lr : Range K) (g : LineGeom K) :
    ∃ (ib ie : Nat) (e : ℤ), ∃ (hb : ib < axis.length) (he : ie < axis.length), indexRange axis g.mu lr g.win = .ok (ib, e) ∧
      (∀ j (hj : j < axis.length), j < ib → axis[j] < lo lr g) ∧
      (lo lr g ≤ axis[ib] ∨ (ib = axis.length - 1 ∧ ∀ x ∈ axis, x < lo lr g)) ∧
      (∀ j (hj : j < axis.length), j < ie → axis[j] < hi lr g) ∧
      (hi lr g ≤ axis[ie] ∨ (ie = axis.length - 1 ∧ ∀ x ∈ axis, x < hi lr g)) ∧
      (∃ e1 : ℤ, e1 = (if lr.e < axis[ie] then (ie : ℤ) - 1 else ie) ∧ e = if e1 < ib then (ib : ℤ) - 1 else e1) := by
  have hlo : (if g.mu - g.win / 2 < lr.b then lr.b else g.mu - g.win / 2) = lo lr g := by
    unfold lo; split
    · rename_i h; rw [max_eq_left h.le]
    · rename_i h; rw [max_eq_right (not_lt.1 h)]
  have hhi : (if g.mu + g.win / 2 > lr.e then lr.e else g.mu + g.win / 2) = hi lr g := by
    unfold hi; split
    · rename_i h; rw [min_eq_left (le_of_lt h)]
    · rename_i h; rw [min_eq_right (not_lt.1 h)]
  obtain ⟨ib, hb, h1, h2, h3⟩ := SAxis.C36_indexAt axis hs hne (lo lr g)
  obtain ⟨ie, he, h4, h5, h6⟩ := SAxis.C36_indexAt axis hs hne (hi lr g)
  refine ⟨ib, ie, _, hb, he, ?_, h2, h3, h5, h6, _, rfl, rfl⟩
  unfold indexRange
  simp only [hlo, hhi, h1, h4, Res.bind_ok, Res.at_of_lt he, gt_iff_lt]

theorem axis_lt {axis : List K} (hs : SAxis.Increasing axis) {i j : Nat} (hi : i < axis.length) (hj : j < axis.length) (h : i < j) :
    axis[i] < axis[j] := getElem_lt_of_lt hs (by omega) hj

theorem theoretical_ok (axis : List K) (hs : SAxis.Increasing axis) (hne : axis ≠ []) (lr : Range K) (g : LineGeom K) :
    ∃ t, theoretical axis lr g = .ok t ∧ (t.out = false → g.avail = true ∧ ∃ (s e : Nat), ∃ (hs : s < axis.length) (he : e < axis.length),
      t.s = s ∧ t.e = e ∧ s ≤ e ∧ indexRange axis g.mu lr g.win = .ok ((s : ℤ), (e : ℤ)) ∧
      axis[s] < lr.e - 33 / 100 * g.win ∧ lr.b + 33 / 100 * g.win < axis[e]) ∧
    (t.out = true → g.avail = true → ∃ s e, indexRange axis g.mu lr g.win = .ok (s, e) ∧ (e < s ∨ ∃ (s' e' : Nat), ∃ (hs : s' < axis.length) (he : e' < axis.length),
      s = s' ∧ e = e' ∧ (lr.e - 33 / 100 * g.win ≤ axis[s'] ∨ axis[e'] ≤ lr.b + 33 / 100 * g.win))) := by
  unfold theoretical
  by_cases ha : g.avail = false
  · rw [if_pos ha]
    exact ⟨_, rfl, by simp, by intro _ h; rw [ha] at h; cases h⟩
  · rw [if_neg ha]
    obtain ⟨ib, ie, e, hb, he, h1, h2, h3, h4, h5, e1, h6, h7⟩ := indexRange_spec axis hs hne lr g
    rw [h1, Res.bind_ok]
    simp only
    by_cases hc : (ib : ℤ) > e
    · rw [if_pos hc]
      refine ⟨_, rfl, by simp, ?_⟩
      intro _ _
      exact ⟨ib, e, rfl, Or.inl hc⟩
    · rw [if_neg hc]
      have hee : e = e1 := by
        rw [h7]; split
        · rename_i h; rw [if_pos h] at h7; omega
        · rfl
      have hle : e1 ≤ ie := by rw [h6]; split <;> omega
      obtain ⟨en, hen⟩ : ∃ en : Nat, e = en := ⟨e.toNat, by omega⟩
      have hlt : en < axis.length := by omega
      rw [hen, Meiksin.atZ_nat, Meiksin.atZ_nat, Res.at_of_lt hb, Res.at_of_lt hlt, Res.bind_ok, Res.bind_ok]
      refine ⟨_, rfl, ?_, ?_⟩
      · intro hout
        simp only [Bool.or_eq_false_iff, decide_eq_false_iff_not, not_le, ge_iff_le] at hout
        refine ⟨by simpa using ha, ib, en, hb, hlt, rfl, rfl, by omega, rfl, hout.1, hout.2⟩
      · intro hout _
        simp only [Bool.or_eq_true, decide_eq_true_iff, ge_iff_le] at hout
        exact ⟨ib, en, rfl, Or.inr ⟨ib, en, hb, hlt, rfl, rfl, hout⟩⟩

/-- **C71, theoretical support.** On an increasing axis the support of a line can always be computed. When the line is in range,
its support is a range of samples of the axis; it contains every sample of the window of the line cut at the wavelength range;
all its samples but the last one are before the end of that cut window, and none is beyond the wavelength range. If
the wavelength range is within the axis and the window not negative, none is before the cut window. -/
theorem C71_theoretical (axis : List K) (hs : SAxis.Increasing axis) (hne : axis ≠ []) (lr : Range K) (g : LineGeom K) :
    ∃ t, theoretical axis lr g = .ok t ∧ (t.out = false → g.avail = true ∧ 0 ≤ t.s ∧ t.s ≤ t.e ∧ t.e < axis.length ∧
      (∀ p (hp : p < axis.length), lo lr g ≤ axis[p] → axis[p] ≤ hi lr g → t.s ≤ p ∧ (p : ℤ) ≤ t.e) ∧
      (∀ p (hp : p < axis.length), t.s ≤ p → (p : ℤ) ≤ t.e → axis[p] ≤ lr.e ∧ ((p : ℤ) < t.e → axis[p] < hi lr g)) ∧
      (lr.e ≤ axis[axis.length - 1]'(by have := List.length_pos_iff.2 hne; omega) → 0 ≤ g.win → lr.b ≤ lr.e →
        ∀ p (hp : p < axis.length), t.s ≤ p → lo lr g ≤ axis[p])) := by
  have hpos := List.length_pos_iff.2 hne
  obtain ⟨t, ht, hout, _⟩ := theoretical_ok axis hs hne lr g
  refine ⟨t, ht, fun ho => ?_⟩
  obtain ⟨ha, s, e, hsl, hel, hts, hte, hse, hir, hx, hy⟩ := hout ho
  obtain ⟨ib, ie, e', hb, he, h1, h2, h3, h4, h5, e1, h6, h7⟩ := indexRange_spec axis hs hne lr g
  rw [hir] at h1
  simp only [Res.ok.injEq, Prod.mk.injEq] at h1
  obtain ⟨hib, he'⟩ := h1
  have hib' : s = ib := by omega
  subst hib'
  have hee : (e : ℤ) = e1 := by
    rw [he', h7]; split
    · rename_i h; rw [if_pos h] at h7; omega
    · rfl
  have hele : e ≤ ie := by
    have : (e : ℤ) ≤ ie := by rw [hee, h6]; split <;> omega
    omega
  have hend : axis[e] ≤ lr.e := by
    by_cases c : lr.e < axis[ie]
    · rw [if_pos c] at h6
      have hlt : e < ie := by omega
      exact (h4 e hel hlt).le.trans (min_le_left _ _)
    · rw [if_neg c] at h6
      have : e = ie := by omega
      subst this; exact not_lt.1 c
  have hmono : ∀ p q (hp : p < axis.length) (hq : q < axis.length), p ≤ q → axis[p] ≤ axis[q] := by
    intro p q hp hq hpq
    rcases Nat.lt_or_eq_of_le hpq with h | h
    · exact (axis_lt hs hp hq h).le
    · subst h; exact le_refl _
  rw [hts, hte]
  refine ⟨ha, by omega, by omega, by omega, ?_, ?_, ?_⟩
  · intro p hp hl hh
    constructor
    · by_contra hc
      exact absurd hl (not_le.2 (h2 p hp (by omega)))
    · by_contra hc
      have hpe : e < p := by omega
      by_cases c : lr.e < axis[ie]
      · rw [if_pos c] at h6
        have : ie ≤ p := by omega
        have := hmono ie p he hp this
        exact absurd (hh.trans (min_le_left _ _)) (not_le.2 (lt_of_lt_of_le c this))
      · rw [if_neg c] at h6
        have hie : ie < p := by omega
        have h8 := axis_lt hs he hp hie
        rcases h5 with h5 | ⟨h5, _⟩
        · exact absurd hh (not_le.2 (lt_of_le_of_lt h5 h8))
        · omega
  · intro p hp hl hh
    refine ⟨(hmono p e hp hel (by omega)).trans hend, ?_⟩
    intro hlt
    exact h4 p hp (by omega)
  · intro hlast hw hr p hp hl
    have hsp := hmono s p hsl hp (by omega)
    refine le_trans ?_ hsp
    rcases h3 with h3 | ⟨h3, h9⟩
    · exact h3
    · exfalso
      have h10 := h9 _ (List.getElem_mem (show axis.length - 1 < axis.length by omega))
      have h11 : axis[s] = axis[axis.length - 1]'(by omega) := by congr 1
      rw [h11] at hx
      have : (0 : K) ≤ 33 / 100 * g.win := by positivity
      linarith

/-- **C71, lines in range.** A line is in range as soon as its LSF is available and some sample of its cut window is further than
0.33 window from both ends of the wavelength range; a line with less than 0.33 of its window before the end of the range is outside. -/
theorem C71_in_range (axis : List K) (hs : SAxis.Increasing axis) (hne : axis ≠ []) (lr : Range K) (g : LineGeom K) (ha : g.avail = true)
    (p : Nat) (hp : p < axis.length) (h1 : lo lr g ≤ axis[p]) (h2 : axis[p] ≤ hi lr g)
    (h3 : lr.b + 33 / 100 * g.win < axis[p]) (h4 : axis[p] < lr.e - 33 / 100 * g.win) :
    ∃ t, theoretical axis lr g = .ok t ∧ t.out = false := by
  obtain ⟨t, ht, _, hout⟩ := theoretical_ok axis hs hne lr g
  refine ⟨t, ht, ?_⟩
  by_contra hc
  obtain ⟨s, e, hir, hcase⟩ := hout (by simpa using hc) ha
  obtain ⟨ib, ie, e', hb, he, k1, k2, k3, k4, k5, e1, k6, k7⟩ := indexRange_spec axis hs hne lr g
  rw [hir] at k1
  simp only [Res.ok.injEq, Prod.mk.injEq] at k1
  obtain ⟨hib, he'⟩ := k1
  have hpb : ib ≤ p := by
    by_contra hh
    exact absurd h1 (not_le.2 (k2 p hp (by omega)))
  have hmono : ∀ p q (hp : p < axis.length) (hq : q < axis.length), p ≤ q → axis[p] ≤ axis[q] := by
    intro p q hp hq hpq
    rcases Nat.lt_or_eq_of_le hpq with h | h
    · exact (axis_lt hs hp hq h).le
    · subst h; exact le_refl _
  have hpe1 : (p : ℤ) ≤ e1 := by
    by_contra hh
    by_cases c : lr.e < axis[ie]
    · rw [if_pos c] at k6
      have := hmono ie p he hp (by omega)
      exact absurd (h2.trans (min_le_left _ _)) (not_le.2 (lt_of_lt_of_le c this))
    · rw [if_neg c] at k6
      have h8 := axis_lt hs he hp (show ie < p by omega)
      rcases k5 with k5 | ⟨k5, _⟩
      · exact absurd h2 (not_le.2 (lt_of_le_of_lt k5 h8))
      · omega
  rw [if_neg (by omega)] at k7
  rcases hcase with hcase | ⟨s', e'', hs', he'', q1, q2, q3⟩
  · omega
  · have : s' ≤ p := by omega
    have hpe : p ≤ e'' := by omega
    rcases q3 with q3 | q3
    · have := hmono s' p hs' hp this; linarith
    · have := hmono p e'' hp he'' hpe; linarith

/-- **C71, negative part**: with a sampling coarser than the lines, a line whose window ends before the wavelength range counts as
in range, its support being the first sample of the range. -/
theorem C71_line_before_range_counterexample :
    theoretical [0, 10, 20] (⟨5, 20⟩ : Range ℚ) ⟨true, 1, 2⟩ = .ok ⟨1, 1, false⟩ := by decide +kernel

/-- **C71, negative part**: when the wavelength range goes beyond the axis, a line far beyond the last sample counts as in range,
its support being the last sample. -/
theorem C71_line_after_axis_counterexample :
    theoretical [0, 10, 20] (⟨0, 100⟩ : Range ℚ) ⟨true, 60, 2⟩ = .ok ⟨2, 2, false⟩ := by decide +kernel

theorem grouped_init (n : Nat) (out : Nat → Bool) (s e : Nat → ℤ) (h : ∀ k, In n out k → s k ≤ e k) :
    Grouped n out s e ⟨s, e, fun a b => decide (a = b)⟩ id where
  rep k hk := ⟨hk, rfl⟩
  union k hk p := ⟨fun h => ⟨k, hk, rfl, h⟩, by rintro ⟨l, hl, h1, h2⟩; simp only [id] at h1 ⊢; rw [← h1]; exact h2⟩
  empty k hk hne := absurd rfl hne
  holder k hk := h k hk
  active k l hk hl := by simp only [id, decide_eq_true_iff]; exact eq_comm
  activeR k l hk hl := by simp only [id, decide_eq_true_iff]
  same k l hk hl := by simp only [id, decide_eq_true_iff]; exact id

/-- The flags of the lines. -/
def Elt.out (e : Elt) : Nat → Bool := fun i => (e.theo i).out

/-- Line `k` of the element is in range. -/
def Elt.In (e : Elt) (k : Nat) : Prop := EltSup.In e.n e.out k

/-- **C71, supports of the element.** `prepareSupport` always ends; the lines in range are grouped, the support of a group being the
union of the theoretical supports of its lines. -/
theorem C71_groups (axis : List K) (hs : SAxis.Increasing axis) (hne : axis ≠ []) (lr : Range K) (lines : List (LineGeom K)) :
    ∃ e, prepareSupport axis lr lines = .ok e ∧ e.n = lines.length ∧
      (∀ (i : Nat) g, lines[i]? = some g → theoretical axis lr g = .ok (e.theo i)) ∧
      ∃ g, Grouped e.n e.out (fun i => (e.theo i).s) (fun i => (e.theo i).e) e.sup g := by
  have htab : ∀ i, i < lines.length → ∃ t, (Res.at_ lines i >>= fun g => theoretical axis lr g) = .ok t := by
    intro i hi
    rw [Res.at_of_lt hi, Res.bind_ok]
    obtain ⟨t, ht, _⟩ := theoretical_ok axis hs hne lr lines[i]
    exact ⟨t, ht⟩
  choose! F hF using htab
  have hth := Res.tab_ok (g := fun i => Res.at_ lines i >>= fun g => theoretical axis lr g) (h := F) lines.length hF
  have hget : ∀ (i : Nat) g, lines[i]? = some g → theoretical axis lr g = .ok ((((List.range lines.length).map F)[i]?).getD ⟨-1, -1, true⟩) := by
    intro i g hi
    obtain ⟨hlt, hg⟩ := List.getElem?_eq_some_iff.1 hi
    have := hF i hlt
    rw [Res.at_of_lt hlt, Res.bind_ok, hg] at this
    rw [this]
    simp [hlt]
  refine ⟨_, by unfold prepareSupport; rw [hth]; rfl, rfl, hget, ?_⟩
  apply passes_keeps
  refine ⟨id, grouped_init _ _ _ _ ?_⟩
  intro k hk
  have h1 := hget k (lines[k]'(hk.1)) (List.getElem?_eq_getElem hk.1)
  obtain ⟨t, ht, hin⟩ := C71_theoretical axis hs hne lr (lines[k]'(hk.1))
  rw [ht] at h1
  simp only [Res.ok.injEq] at h1
  have := (hin (by rw [h1]; exact hk.2)).2.2.1
  rw [h1] at this
  exact this

/-- **C71, coverage.** The supports reported for the element cover exactly the samples of the theoretical supports of its lines in
range. -/
theorem C71_coverage (axis : List K) (hs : SAxis.Increasing axis) (hne : axis ≠ []) (lr : Range K) (lines : List (LineGeom K)) (e : Elt)
    (he : prepareSupport axis lr lines = .ok e) (p : ℤ) :
    (∃ r ∈ e.getSupport, r.1 ≤ p ∧ p ≤ r.2) ↔ ∃ k, e.In k ∧ (e.theo k).s ≤ p ∧ p ≤ (e.theo k).e := by
  obtain ⟨e', h1, h2, h3, g, hg⟩ := C71_groups axis hs hne lr lines
  rw [he] at h1
  cases h1
  unfold Elt.getSupport
  constructor
  · rintro ⟨r, hr, h4, h5⟩
    split at hr
    · simp at hr
    · obtain ⟨k, hk, rfl⟩ := List.mem_map.1 hr
      rw [List.mem_filter, List.mem_range] at hk
      have hin : In e.n e.out k := ⟨hk.1, by simpa [Elt.out] using hk.2⟩
      have hgk : g k = k := by
        by_contra hne; have := hg.empty k hin hne; omega
      have := (hg.union k hin p).1 (by rw [hgk]; exact ⟨h4, h5⟩)
      obtain ⟨l, hl, _, h6⟩ := this
      exact ⟨l, hl, h6⟩
  · rintro ⟨k, hk, h4⟩
    have hno : e.outside = false := by
      unfold Elt.outside
      rw [List.all_eq_false]
      exact ⟨k, List.mem_range.2 hk.1, by have := hk.2; simpa [Elt.out] using this⟩
    rw [hno]
    simp only [Bool.false_eq_true, if_false]
    have hr := (hg.rep k hk).1
    refine ⟨(e.sup.s (g k), e.sup.e (g k)), List.mem_map.2 ⟨g k, ?_, rfl⟩, (hg.union k hk p).2 ⟨k, hk, rfl, h4⟩⟩
    rw [List.mem_filter, List.mem_range]
    exact ⟨hr.1, by have := hr.2; simpa [Elt.out] using this⟩

/-- **C71, separation.** With at most 21 lines, the supports of two lines in range share at most one sample. -/
theorem C71_separated_partial (axis : List K) (hs : SAxis.Increasing axis) (hne : axis ≠ []) (lr : Range K) (lines : List (LineGeom K)) (e : Elt)
    (he : prepareSupport axis lr lines = .ok e) (hn : lines.length ≤ 21) (k l : Nat) (hk : e.In k) (hl : e.In l) (hkl : k ≠ l)
    (p q : ℤ) (h1 : Covers e.sup.s e.sup.e k p) (h2 : Covers e.sup.s e.sup.e k q) (h3 : Covers e.sup.s e.sup.e l p)
    (h4 : Covers e.sup.s e.sup.e l q) : p = q := by
  have hdup : hasDup e.n e.out e.sup = false := by
    obtain ⟨e', h1, h2, h3, g, hg⟩ := C71_groups axis hs hne lr lines
    rw [he] at h1
    cases h1
    unfold prepareSupport at he
    obtain ⟨th, hth, he⟩ := Res.bind_eq_ok.1 he
    cases he
    apply passes_noDup (s0 := fun i => ((th[i]?).getD ⟨-1, -1, true⟩).s) (e0 := fun i => ((th[i]?).getD ⟨-1, -1, true⟩).e)
    · refine ⟨id, grouped_init _ _ _ _ ?_⟩
      intro k hk
      obtain ⟨t, ht, hin⟩ := C71_theoretical axis hs hne lr (lines[k]'(hk.1))
      have h5 := h3 k (lines[k]'(hk.1)) (List.getElem?_eq_getElem hk.1)
      rw [ht] at h5
      simp only [Res.ok.injEq] at h5
      have := (hin (by rw [h5]; exact hk.2)).2.2.1
      rw [h5] at this
      exact this
    · refine le_trans ?_ hn
      unfold count
      exact (List.countP_le_length).trans (by simp)
    · omega
  by_contra hpq
  have : hasDup e.n e.out e.sup = true := by
    refine hasDup_iff.2 ⟨k, l, hk, hl, hkl, ?_⟩
    rw [overlaps_iff]
    unfold Covers at h1 h2 h3 h4
    omega
  rw [hdup] at this
  cases this

/-- **C71, negative part**: the supports of two lines can share their end sample, which then belongs to two ranges. -/
theorem C71_shared_sample_counterexample :
    (prepareSupport ([0, 1, 2, 3, 4, 5, 6, 7, 8] : List ℚ) ⟨0, 8⟩ [⟨true, 3, 2⟩, ⟨true, 5, 2⟩]).bind (fun e => .ok e.getSupport) =
      .ok [(2, 4), (4, 6)] := by decide +kernel

/-- Example for C71: three lines, the first two overlapping, the third apart, and one outside. -/
example : (prepareSupport ([0, 1, 2, 3, 4, 5, 6, 7, 8, 9, 10, 11, 12] : List ℚ) ⟨0, 12⟩
      [⟨true, 3, 2⟩, ⟨true, 4, 3⟩, ⟨true, 9, 2⟩, ⟨true, 30, 2⟩]).bind
      (fun e => .ok (e.getSupport.filter fun r => decide (r.1 ≤ r.2))) =
      .ok [(2, 6), (8, 10)] := by decide +kernel

end EltSup
end Amazed
