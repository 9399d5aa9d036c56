import Verif.Props.LineDetectReduced

set_option linter.unusedSectionVars false
set_option linter.unusedVariables false

/-! # Line detection: the second test (C121) -/

namespace Amazed
namespace LineDetect
open Amp (LType Force)

variable {K : Type} [Field K] [LinearOrder K] [IsStrictOrderedRing K] [FloorRing K]

/-! ## Specification -/

/-- A sort of the lines: a permutation in the order of the positions, then of the amplitudes. -/
structure Sorts (srt : List (Det K) → List (Det K)) : Prop where
  perm : ∀ l, (srt l).Perm l
  sorted : ∀ l, (srt l).Pairwise fun a b => a.pos < b.pos ∨ (a.pos = b.pos ∧ a.amp ≤ b.amp)

/-- The line is strong, of the type looked for. -/
def Strong (p : Prm K) (cat : List (Det K)) (d : Det K) : Prop :=
  d ∈ cat ∧ (p.type = .all ∨ p.type = d.type) ∧ d.force = .strong

/-- The middle of the range is nearer to the line than half the window, the window being rounded to a whole number of angstroms. -/
def Near (s : Spc K) (win : K) (d : Det K) (r : Nat × Nat) : Prop :=
  ∃ b e, s.axis[r.1]? = some b ∧ s.axis[r.2]? = some e ∧ |d.pos - (b + e) / 2| < (trunc win : K) / 2

/-- The wavelength is in the interval. -/
def Covers (t : Int × Int) (x : K) : Prop := (t.1 : K) ≤ x ∧ x ≤ (t.2 : K)

/-- The line has a finite ratio. -/
def Finite (d : Det K) : Prop := ∃ c, d.cut = .num c

/-- The intervals removed from the spectrum: they lie in those of half width `2.35 · ratio` around the strong lines, and avoid
the inner part of the peaks tested again. -/
structure Removed (s : Spc K) (win : K) (strong : Det K → Prop) (retest : List ((Nat × Nat) × (K × K × K)))
    (ex : List (Int × Int)) : Prop where
  around : ∀ t ∈ ex, ∃ d c, strong d ∧ d.cut = .num c ∧
    ∀ x : K, Covers t x → Covers (trunc (d.pos - 235 / 100 * c), trunc (d.pos + 235 / 100 * c)) x
  free : ∀ t ∈ ex, ∀ y ∈ retest, (∃ d, strong d ∧ Near s win d y.1) → ∀ b e, s.axis[y.1.1]? = some b → s.axis[y.1.2]? = some e →
    ∀ x : K, (trunc b : K) < x → x < (trunc e : K) → ¬ Covers t x

/-! ## Selection -/

theorem near_iff {s : Spc K} {win : K} {d : Det K} {r : Nat × Nat} {b e : K} (hb : s.axis[r.1]? = some b) (he : s.axis[r.2]? = some e) :
    (d.pos - (trunc win : K) / 2 < (e + b) / 2 ∧ d.pos + (trunc win : K) / 2 > (e + b) / 2) ↔ Near s win d r := by
  unfold Near
  constructor
  · rintro ⟨h1, h2⟩
    refine ⟨b, e, hb, he, ?_⟩
    rw [abs_lt]
    constructor <;> linarith
  · rintro ⟨b', e', h1, h2, h3⟩
    rw [hb] at h1; cases h1
    rw [he] at h2; cases h2
    rw [abs_lt] at h3
    constructor <;> linarith [h3.1, h3.2]

theorem select_ok (s : Spc K) (win : K) (strong : List (Det K)) : ∀ (l : List ((Nat × Nat) × (K × K × K))),
    (∀ x ∈ l, x.1.1 ≤ x.1.2 ∧ x.1.2 < s.axis.length) →
    ∃ sel, selectRetest s win strong l = .ok sel ∧ ∀ x, x ∈ sel ↔ x ∈ l ∧ ∃ d ∈ strong, Near s win d x.1
  | [], _ => ⟨[], rfl, by simp⟩
  | x :: xs, h => by
    obtain ⟨sel, e, hs⟩ := select_ok s win strong xs (fun y hy => h y (by simp [hy]))
    obtain ⟨h1, h2⟩ := h x (by simp)
    have h3 : x.1.1 < s.axis.length := by omega
    unfold selectRetest
    rw [Res.at_of_lt h3, Res.bind_ok, Res.at_of_lt h2, Res.bind_ok]
    simp only []
    rw [e, Res.bind_ok]
    refine ⟨_, rfl, ?_⟩
    intro y
    rw [List.mem_append, hs y, List.mem_map, List.mem_cons]
    constructor
    · rintro (⟨d, hd, rfl⟩ | ⟨hy, hd⟩)
      · rw [List.mem_filter, decide_eq_true_eq, near_iff (List.getElem?_eq_getElem h3) (List.getElem?_eq_getElem h2)] at hd
        exact ⟨Or.inl rfl, d, hd.1, hd.2⟩
      · exact ⟨Or.inr hy, hd⟩
    · rintro ⟨rfl | hy, hd⟩
      · left
        obtain ⟨d, h4, h5⟩ := hd
        refine ⟨d, ?_, rfl⟩
        rw [List.mem_filter, decide_eq_true_eq, near_iff (List.getElem?_eq_getElem h3) (List.getElem?_eq_getElem h2)]
        exact ⟨h4, h5⟩
      · exact Or.inr ⟨hy, hd⟩

/-! ## Intervals -/

theorem makeRoom_sub {l t : Int × Int} {x : K} (h : Covers (makeRoom l t) x) : Covers t x := by
  unfold makeRoom at h
  by_cases hc : l.2 > t.1 ∧ l.1 < t.2
  · rw [if_pos hc] at h
    have a1 : (t.1 : K) < (l.2 : K) := by exact_mod_cast hc.1
    have a2 : (l.1 : K) < (t.2 : K) := by exact_mod_cast hc.2
    by_cases hd : t.1 > l.1
    · rw [if_pos hd] at h
      exact ⟨le_trans a1.le h.1, h.2⟩
    · rw [if_neg hd] at h
      exact ⟨h.1, le_trans h.2 a2.le⟩
  · rw [if_neg hc] at h
    exact h

theorem makeRoom_free {l t : Int × Int} {x : K} (h1 : (l.1 : K) < x) (h2 : x < (l.2 : K)) : ¬ Covers (makeRoom l t) x := by
  intro h
  unfold makeRoom at h
  by_cases hc : l.2 > t.1 ∧ l.1 < t.2
  · rw [if_pos hc] at h
    by_cases hd : t.1 > l.1
    · rw [if_pos hd] at h
      exact absurd h.1 (not_le.2 h2)
    · rw [if_neg hd] at h
      exact absurd h.2 (not_le.2 h1)
  · rw [if_neg hc] at h
    apply hc
    constructor
    · have : (t.1 : K) < (l.2 : K) := lt_of_le_of_lt h.1 h2
      exact_mod_cast this
    · have : (l.1 : K) < (t.2 : K) := lt_of_lt_of_le h1 h.2
      exact_mod_cast this

theorem exclude_ok (s : Spc K) : ∀ (sel : List ((Nat × Nat) × (K × K × K))) (ex : List (Int × Int)),
    (∀ x ∈ sel, x.1.1 ≤ x.1.2 ∧ x.1.2 < s.axis.length) →
    ∃ ex', excludeAll s sel ex = .ok ex' ∧
      (∀ t' ∈ ex', ∃ t ∈ ex, ∀ x : K, Covers t' x → Covers t x) ∧
      (∀ t' ∈ ex', ∀ y ∈ sel, ∀ b e, s.axis[y.1.1]? = some b → s.axis[y.1.2]? = some e →
        ∀ x : K, (trunc b : K) < x → x < (trunc e : K) → ¬ Covers t' x)
  | [], ex, _ => ⟨ex, rfl, fun t' h => ⟨t', h, fun _ h => h⟩, by simp⟩
  | y :: ys, ex, h => by
    obtain ⟨h1, h2⟩ := h y (by simp)
    have h3 : y.1.1 < s.axis.length := by omega
    unfold excludeAll
    rw [Res.at_of_lt h3, Res.bind_ok, Res.at_of_lt h2, Res.bind_ok]
    obtain ⟨ex', e1, e2, e3⟩ := exclude_ok s ys (ex.map (makeRoom (trunc s.axis[y.1.1], trunc s.axis[y.1.2])))
      (fun z hz => h z (by simp [hz]))
    refine ⟨ex', e1, ?_, ?_⟩
    · intro t' ht'
      obtain ⟨t, ht, hs⟩ := e2 t' ht'
      rw [List.mem_map] at ht
      obtain ⟨u, hu, rfl⟩ := ht
      exact ⟨u, hu, fun x hx => makeRoom_sub (hs x hx)⟩
    · intro t' ht' z hz b e hb he x hx1 hx2
      rw [List.mem_cons] at hz
      rcases hz with rfl | hz
      · rw [List.getElem?_eq_getElem h3] at hb
        rw [List.getElem?_eq_getElem h2] at he
        cases hb; cases he
        obtain ⟨t, ht, hs⟩ := e2 t' ht'
        rw [List.mem_map] at ht
        obtain ⟨u, hu, rfl⟩ := ht
        intro hc
        exact makeRoom_free hx1 hx2 (hs x hc)
      · exact e3 t' ht' z hz b e hb he x hx1 hx2

theorem excludedAll_ok : ∀ (l : List (Det K)), (∀ d ∈ l, Finite d) →
    ∃ ex, excludedAll l = .ok ex ∧
      ∀ t ∈ ex, ∃ d c, d ∈ l ∧ d.cut = .num c ∧ t = (trunc (d.pos - 235 / 100 * c), trunc (d.pos + 235 / 100 * c))
  | [], _ => ⟨[], rfl, by simp⟩
  | d :: ds, h => by
    obtain ⟨ex, e, hx⟩ := excludedAll_ok ds (fun y hy => h y (by simp [hy]))
    obtain ⟨c, hc⟩ := h d (by simp)
    unfold excludedAll excluded
    rw [hc]
    simp only []
    rw [Res.bind_ok, e, Res.bind_ok]
    refine ⟨_, rfl, ?_⟩
    intro t ht
    rw [List.mem_cons] at ht
    rcases ht with rfl | ht
    · exact ⟨d, c, by simp, hc, rfl⟩
    · obtain ⟨d', c', h1, h2, h3⟩ := hx t ht
      exact ⟨d', c', by simp [h1], h2, h3⟩

theorem excludedAll_finite : ∀ (l : List (Det K)) ex, excludedAll l = .ok ex → ∀ d ∈ l, Finite d
  | [], _, _, d, h => by simp at h
  | d :: ds, ex, h, d', hd => by
    unfold excludedAll at h
    rw [Res.bind_eq_ok] at h
    obtain ⟨t, h1, h2⟩ := h
    rw [Res.bind_eq_ok] at h2
    obtain ⟨ex', h3, h4⟩ := h2
    rw [List.mem_cons] at hd
    rcases hd with rfl | hd
    · unfold excluded at h1
      cases hc : d'.cut with
      | num c => exact ⟨c, hc⟩
      | _ => rw [hc] at h1; simp at h1
    · exact excludedAll_finite ds ex' h3 d' hd

/-! ## The loop -/

/-- A line added by the second test. -/
structure IsExtra (p : Prm K) (s : Spc K) (ex : List (Int × Int)) (x : (Nat × Nat) × (K × K × K)) (d : Det K) : Prop where
  pos : d.pos = x.2.1
  amp : d.amp = x.2.2.1
  width : d.width = x.2.2.2
  type : d.type = p.type
  force : d.force = .weak
  errs : d.posErr = -1 ∧ d.widthErr = -1 ∧ d.ampErr = -1
  cut : d.cut.gt p.cut = true
  ratio : IsRatio (restrict s (kept s.axis ex)) (trunc p.win : K) (rank s.axis ex x.1.1) (rank s.axis ex x.1.2) d.cut

theorem loop_ok (srt : List (Det K) → List (Det K)) (hsrt : Sorts srt) (p : Prm K) (s : Spc K) (ex : List (Int × Int)) (h : WF s)
    (hwin : 0 ≤ p.win) : ∀ (sel : List ((Nat × Nat) × (K × K × K))) (k : Nat) (cat : List (Det K)),
    (∀ x ∈ sel, x.1.1 ≤ x.1.2 ∧ x.1.2 < s.axis.length) →
    (∃ (cat' extra : List (Det K)), retestLoop srt p (trunc p.win : K) (restrict s (kept s.axis ex))
        (reducedMap (s.axis.map (masked ex))) k sel cat = .ok cat' ∧ cat'.Perm (cat ++ extra) ∧ (extra = [] → cat' = cat) ∧
      (extra ≠ [] → cat'.Pairwise fun a b => a.pos < b.pos ∨ (a.pos = b.pos ∧ a.amp ≤ b.amp)) ∧
      (∀ d ∈ extra, ∃ x ∈ sel, IsExtra p s ex x d) ∧
      (∀ x ∈ sel, (∃ d ∈ extra, IsExtra p s ex x d) ∨ ∃ q,
        IsRatio (restrict s (kept s.axis ex)) (trunc p.win : K) (rank s.axis ex x.1.1) (rank s.axis ex x.1.2) q ∧ q.gt p.cut = false)) ∨
    (retestLoop srt p (trunc p.win : K) (restrict s (kept s.axis ex)) (reducedMap (s.axis.map (masked ex))) k sel cat =
        .throw .INTERNAL_ERROR ∧ Hidden s.axis ex 0)
  | [], k, cat, _ => Or.inl ⟨cat, [], rfl, by simp, fun _ => rfl, by simp, by simp, by simp⟩
  | x :: xs, k, cat, hsel => by
    obtain ⟨h1, h2⟩ := hsel x (by simp)
    have hw : (0 : K) ≤ (trunc p.win : K) := by
      unfold trunc
      rw [if_pos hwin]
      exact_mod_cast Int.floor_nonneg.2 hwin
    have hm1 := reducedMap_get s.axis ex x.1.1 (by omega)
    have hm2 := reducedMap_get s.axis ex x.1.2 h2
    have hmono := rank_mono s.axis ex h1
    have hwf := restrict_wf s ex h
    unfold retestLoop retestOne
    rw [Res.at_eq_ok.2 hm1, Res.bind_ok, Res.at_eq_ok.2 hm2, Res.bind_ok]
    by_cases hlen : rank s.axis ex x.1.2 < (restrict s (kept s.axis ex)).axis.length
    · obtain ⟨q, a, b, e1, hq⟩ := ratio_ok _ (trunc p.win : K) _ _ hwf hw hlen hmono
      rw [e1, Res.bind_ok]
      by_cases hg : q.gt p.cut = true
      · simp only [if_pos hg]
        rw [Res.bind_ok]
        set d : Det K := ⟨"detected_retested_peak_" ++ toString k, x.2.1, p.type, .weak, x.2.2.1, x.2.2.2, q, -1, -1, -1⟩ with hd
        have hex : IsExtra p s ex x d := ⟨rfl, rfl, rfl, rfl, rfl, ⟨rfl, rfl, rfl⟩, hg, hq⟩
        rcases loop_ok srt hsrt p s ex h hwin xs (k + 1) (sortCat srt (cat ++ [d])) (fun y hy => hsel y (by simp [hy])) with
          ⟨cat', extra, c1, c2, c3, c4, c5, c6⟩ | hbad
        · left
          refine ⟨cat', d :: extra, c1, ?_, by simp, ?_, ?_, ?_⟩
          · refine c2.trans ?_
            unfold sortCat
            refine ((hsrt.perm (cat ++ [d])).append_right extra).trans ?_
            simp
          · intro _
            by_cases hne : extra = []
            · rw [c3 hne]
              exact hsrt.sorted _
            · exact c4 hne
          · intro d' hd'
            rw [List.mem_cons] at hd'
            rcases hd' with rfl | hd'
            · exact ⟨x, by simp, hex⟩
            · obtain ⟨y, hy, hy'⟩ := c5 d' hd'
              exact ⟨y, by simp [hy], hy'⟩
          · intro y hy
            rw [List.mem_cons] at hy
            rcases hy with rfl | hy
            · exact Or.inl ⟨d, by simp, hex⟩
            · rcases c6 y hy with ⟨d', h3, h4⟩ | hno
              · exact Or.inl ⟨d', by simp [h3], h4⟩
              · exact Or.inr hno
        · exact Or.inr hbad
      · simp only [if_neg hg]
        rw [Res.bind_ok]
        rcases loop_ok srt hsrt p s ex h hwin xs (k + 1) cat (fun y hy => hsel y (by simp [hy])) with
          ⟨cat', extra, c1, c2, c3, c4, c5, c6⟩ | hbad
        · left
          refine ⟨cat', extra, c1, c2, c3, c4, ?_, ?_⟩
          · intro d' hd'
            obtain ⟨y, hy, hy'⟩ := c5 d' hd'
            exact ⟨y, by simp [hy], hy'⟩
          · intro y hy
            rw [List.mem_cons] at hy
            rcases hy with rfl | hy
            · exact Or.inr ⟨q, hq, by simpa using hg⟩
            · exact c6 y hy
        · exact Or.inr hbad
    · right
      rw [C119_errors _ _ _ _ _ hwf (Or.inl rfl) (Or.inl (by omega))]
      refine ⟨rfl, ?_⟩
      by_contra h0
      have := rank_lt s.axis ex x.1.2 h2 h0
      apply hlen
      simpa [restrict, pick] using this

/-! ## C121 -/

theorem strong_iff (p : Prm K) (cat : List (Det K)) (d : Det K) :
    d ∈ cat.filter (fun d => (decide (p.type = .all) || decide (p.type = d.type)) && decide (d.force = .strong)) ↔ Strong p cat d := by
  unfold Strong
  rw [List.mem_filter]
  simp

/-- **C121** The second test, for any catalogue whose strong lines have finite ratios: it only adds lines. The new catalogue is the old one
and weak lines, sorted when there is one; each of them comes from a peak that the first test refused, whose middle is near a
strong line, and whose ratio in the spectrum without the strong lines is above the cut; and every such peak is added. The removed
intervals lie around the strong lines and avoid the inner part of these peaks. The only other outcome is an error, and then the
first sample of the spectrum was removed. -/
theorem C121_retest (srt : List (Det K) → List (Det K)) (hsrt : Sorts srt) (p : Prm K) (s : Spc K) (st : St K) (h : WF s)
    (hwin : 0 ≤ p.win) (hp : ∀ x ∈ st.retest, x.1.1 ≤ x.1.2 ∧ x.1.2 < s.axis.length)
    (hfin : ∀ d, Strong p st.cat d → Finite d) :
    ∃ ex, Removed s p.win (Strong p st.cat) st.retest ex ∧
      ((∃ (cat' extra : List (Det K)), retest srt p s st = .ok cat' ∧ cat'.Perm (st.cat ++ extra) ∧ (extra = [] → cat' = st.cat) ∧
        (extra ≠ [] → cat'.Pairwise fun a b => a.pos < b.pos ∨ (a.pos = b.pos ∧ a.amp ≤ b.amp)) ∧
        (∀ d ∈ extra, ∃ x ∈ st.retest, (∃ t, Strong p st.cat t ∧ Near s p.win t x.1) ∧ IsExtra p s ex x d) ∧
        (∀ x ∈ st.retest, (∃ t, Strong p st.cat t ∧ Near s p.win t x.1) → (∃ d ∈ extra, IsExtra p s ex x d) ∨ ∃ q,
          IsRatio (restrict s (kept s.axis ex)) (trunc p.win : K) (rank s.axis ex x.1.1) (rank s.axis ex x.1.2) q ∧
            q.gt p.cut = false)) ∨
      (retest srt p s st = .throw .INTERNAL_ERROR ∧ Hidden s.axis ex 0)) := by
  unfold retest
  simp only []
  set strong := st.cat.filter (fun d => (decide (p.type = .all) || decide (p.type = d.type)) && decide (d.force = .strong)) with hstrong
  have hst : ∀ d, d ∈ strong ↔ Strong p st.cat d := fun d => strong_iff p st.cat d
  obtain ⟨sel, e1, hsel⟩ := select_ok s p.win strong st.retest hp
  rw [e1, Res.bind_ok]
  obtain ⟨ex0, e2, hex0⟩ := excludedAll_ok strong (fun d hd => hfin d ((hst d).1 hd))
  obtain ⟨ex, e3, hex1, hex2⟩ := exclude_ok s sel ex0 (fun x hx => hp x ((hsel x).1 hx).1)
  have hrem : Removed s p.win (Strong p st.cat) st.retest ex := by
    refine ⟨?_, ?_⟩
    · intro t ht
      obtain ⟨u, hu, hs⟩ := hex1 t ht
      obtain ⟨d, c, h1, h2, h3⟩ := hex0 u hu
      subst h3
      exact ⟨d, c, (hst d).1 h1, h2, hs⟩
    · rintro t ht y hy ⟨d, hd1, hd2⟩
      exact hex2 t ht y ((hsel y).2 ⟨hy, d, (hst d).2 hd1, hd2⟩)
  refine ⟨ex, hrem, ?_⟩
  by_cases h0 : sel.length = 0
  · rw [if_pos h0]
    left
    refine ⟨st.cat, [], rfl, by simp, fun _ => rfl, by simp, by simp, ?_⟩
    rintro x hx ⟨d, hd1, hd2⟩
    have : x ∈ sel := (hsel x).2 ⟨hx, d, (hst d).2 hd1, hd2⟩
    rw [List.length_eq_zero_iff.1 h0] at this
    simp at this
  rw [if_neg h0]
  unfold removeStrong
  rw [e2, Res.bind_ok, e3, Res.bind_ok, reduce_eq s ex h, Res.bind_ok]
  rcases loop_ok srt hsrt p s ex h hwin sel 0 st.cat (fun x hx => hp x ((hsel x).1 hx).1) with
    ⟨cat', extra, c1, c2, c3, c4, c5, c6⟩ | hbad
  · left
    refine ⟨cat', extra, c1, c2, c3, c4, ?_, ?_⟩
    · intro d hd
      obtain ⟨x, hx1, hx2⟩ := c5 d hd
      obtain ⟨hx3, t, ht1, ht2⟩ := (hsel x).1 hx1
      exact ⟨x, hx3, ⟨t, (hst t).1 ht1, ht2⟩, hx2⟩
    · rintro x hx ⟨t, ht1, ht2⟩
      exact c6 x ((hsel x).2 ⟨hx, t, (hst t).2 ht1, ht2⟩)
  · exact Or.inr hbad

/-- **C121** When no strong line lies within `2.35` times its ratio of the first sample, the second test always succeeds. -/
theorem C121_total_partial (srt : List (Det K) → List (Det K)) (hsrt : Sorts srt) (p : Prm K) (s : Spc K) (st : St K) (h : WF s)
    (hwin : 0 ≤ p.win) (hp : ∀ x ∈ st.retest, x.1.1 ≤ x.1.2 ∧ x.1.2 < s.axis.length)
    (hfin : ∀ d, Strong p st.cat d → Finite d) (x0 : K) (hx0 : s.axis[0]? = some x0)
    (hfar : ∀ d c, Strong p st.cat d → d.cut = .num c →
      ¬ Covers (trunc (d.pos - 235 / 100 * c), trunc (d.pos + 235 / 100 * c)) x0) :
    ∃ cat', retest srt p s st = .ok cat' := by
  obtain ⟨ex, hrem, ⟨cat', _, h1, _⟩ | ⟨_, hbad⟩⟩ := C121_retest srt hsrt p s st h hwin hp hfin
  · exact ⟨cat', h1⟩
  · exfalso
    obtain ⟨y, hy, t, ht, hc⟩ := hbad
    rw [hx0] at hy
    cases hy
    obtain ⟨d, c, h1, h2, h3⟩ := hrem.around t ht
    exact hfar d c h1 h2 (h3 _ hc)

/-- **C121** The lines that the detection returns: those of the first test and, sorted with them, the lines added by the second. -/
theorem C121_compute (srt : List (Det K) → List (Det K)) (hsrt : Sorts srt) (p : Prm K) (s : Spc K) (fit : Int × Int → Option (Fit K))
    (peaks : List (Nat × Nat)) (enl : List (Int × Int)) (h : WF s) (hwin : 0 ≤ p.win) (hp : Within s peaks)
    (hl : peaks.length ≤ enl.length) (status : List (Nat × Status)) (cat : List (Det K))
    (hok : compute srt p s fit peaks enl = .ok (status, cat)) :
    ∃ (D : List Nat) (lines extra : List (Det K)), D.Pairwise (· < ·) ∧ (∀ j, j ∈ D ↔ Says p s fit peaks enl j .detected) ∧
      List.Forall₂ (IsLine p s fit peaks enl) D lines ∧ cat.Perm (lines ++ extra) ∧ (extra = [] → cat = lines) ∧
      (∀ j b, (j, b) ∈ status ↔ Says p s fit peaks enl j b) ∧
      ∀ d ∈ extra, ∃ j g q r, Passes p s fit peaks enl j g q ∧ q.lt p.cut = true ∧ peaks[j]? = some r ∧
        (∃ t ∈ lines, t.force = .strong ∧ Near s p.win t r) ∧
        d.pos = g.pos ∧ d.amp = g.amp ∧ d.width = g.width ∧ d.force = .weak ∧ d.type = p.type ∧ d.cut.gt p.cut = true := by
  obtain ⟨st, D, R, e, a1, a2, a3, a4, a5, a6, a7⟩ := C120_detect p s fit peaks enl h hwin hp hl
  have hR : ∀ x ∈ st.retest, ∃ j, IsRetest p s fit peaks enl j x := by
    intro x hx
    obtain ⟨i, hi, rfl⟩ := List.mem_iff_getElem.1 hx
    have hlen := a6.length_eq
    exact ⟨R[i], List.Forall₂.get a6 (by omega) hi⟩
  have hp' : ∀ x ∈ st.retest, x.1.1 ≤ x.1.2 ∧ x.1.2 < s.axis.length := by
    intro x hx
    obtain ⟨j, g, q, _, _, hj, _⟩ := hR x hx
    exact hp x.1 (List.mem_of_getElem? hj)
  unfold compute at hok
  rw [e, Res.bind_ok] at hok
  by_cases h0 : st.retest.length = 0
  · rw [if_pos h0] at hok
    cases hok
    exact ⟨D, st.cat, [], a1, a3, a5, by simp, fun _ => rfl, a7, by simp⟩
  rw [if_neg h0, Res.bind_eq_ok] at hok
  obtain ⟨cat', hr, hc⟩ := hok
  cases hc
  by_cases hfin : ∀ d, Strong p st.cat d → Finite d
  · obtain ⟨ex, hrem, ⟨cat', extra, b1, b2, b3, b4, b5, b6⟩ | ⟨hbad, _⟩⟩ := C121_retest srt hsrt p s st h hwin hp' hfin
    · rw [b1] at hr
      cases hr
      refine ⟨D, st.cat, extra, a1, a3, a5, b2, b3, a7, ?_⟩
      intro d hd
      obtain ⟨x, hx, ⟨t, ht1, ht2⟩, hx2⟩ := b5 d hd
      obtain ⟨j, g, q, hpass, hq, hj, hv⟩ := hR x hx
      refine ⟨j, g, q, x.1, hpass, hq, hj, ⟨t, ht1.1, ht1.2.2, ht2⟩, ?_, ?_, ?_, hx2.force, hx2.type, hx2.cut⟩
      · rw [hx2.pos, hv]
      · rw [hx2.amp, hv]
      · rw [hx2.width, hv]
    · rw [hbad] at hr
      simp at hr
  · -- a strong line of infinite ratio: the second test only succeeds if it selects nothing
    unfold retest at hr
    simp only [] at hr
    obtain ⟨sel, e1, hsel⟩ := select_ok s p.win
      (st.cat.filter (fun d => (decide (p.type = .all) || decide (p.type = d.type)) && decide (d.force = .strong))) st.retest hp'
    rw [e1, Res.bind_ok] at hr
    by_cases hs0 : sel.length = 0
    · rw [if_pos hs0] at hr
      cases hr
      exact ⟨D, st.cat, [], a1, a3, a5, by simp, fun _ => rfl, a7, by simp⟩
    · exfalso
      rw [if_neg hs0] at hr
      unfold removeStrong at hr
      rw [Res.bind_eq_ok] at hr
      obtain ⟨ex0, h1, _⟩ := hr
      apply hfin
      intro d hd
      exact excludedAll_finite _ _ h1 d ((strong_iff p st.cat d).2 hd)

/-! ## Examples and counterexamples -/

/-- A sort of the lines that reduces. -/
def exSort (l : List (Det ℚ)) : List (Det ℚ) :=
  l.insertionSort fun a b => a.pos < b.pos ∨ (a.pos = b.pos ∧ a.amp ≤ b.amp)

theorem exSort_sorts : Sorts exSort := by
  refine ⟨fun l => List.perm_insertionSort _ l, fun l => ?_⟩
  have : Std.Total (fun a b : Det ℚ => a.pos < b.pos ∨ (a.pos = b.pos ∧ a.amp ≤ b.amp)) := ⟨by
    intro a b
    rcases lt_trichotomy a.pos b.pos with h | h | h
    · exact Or.inl (Or.inl h)
    · rcases le_total a.amp b.amp with h' | h'
      · exact Or.inl (Or.inr ⟨h, h'⟩)
      · exact Or.inr (Or.inr ⟨h.symm, h'⟩)
    · exact Or.inr (Or.inl h)⟩
  have : IsTrans (Det ℚ) (fun a b : Det ℚ => a.pos < b.pos ∨ (a.pos = b.pos ∧ a.amp ≤ b.amp)) := ⟨by
    rintro a b c (h1 | ⟨h1, h2⟩) (h3 | ⟨h3, h4⟩)
    · exact Or.inl (h1.trans h3)
    · exact Or.inl (h3 ▸ h1)
    · exact Or.inl (h1 ▸ h3)
    · exact Or.inr ⟨h1.trans h3, h2.trans h4⟩⟩
  exact List.pairwise_insertionSort _ l

/-- Two strong peaks and, between them, a peak whose ratio is too low in the window of 4.5 angstroms and high enough in that of 4. -/
def exTwo : Spc ℚ :=
  ⟨[1, 44, 45, 46, 478 / 10, 479 / 10, 49, 50, 52, 53, 54, 55], [0, 0, 9, 0, 59 / 10, 59 / 10, 0, 6, 0, 0, 9, 0], List.replicate 12 2⟩

/-- The fits of the three peaks. -/
def exTwoFit (e : Int × Int) : Option (Fit ℚ) :=
  if e.1 = 0 then some ⟨8, 49, 1, 1, 1, 1, 1⟩ else if e.1 = 1 then some ⟨5, 50, 1, 1, 1, 1, 1⟩ else some ⟨8, 51, 1, 1, 1, 1, 1⟩

/-- Cut 1, strong beyond 2, window 4.5, no check of the fit. -/
def exTwoPrm : Prm ℚ := ⟨.all, 1, 2, 9 / 2, 0, 100, true⟩

/-- **C121, false of the code** "A peak gives at most one line": one that is near two strong lines is tested twice, and gives the same line twice. -/
theorem C121_duplicate_counterexample :
    ∃ (status : List (Nat × Status)) (cat : List (Det ℚ)), compute exSort exTwoPrm exTwo exTwoFit [(1, 3), (4, 8), (9, 11)] [(0, 0), (1, 1), (2, 2)] = .ok (status, cat) ∧
      status = [(0, .detected), (1, .belowCut), (2, .detected)] ∧
      cat.map (fun d => (d.name, d.pos, d.amp)) = [("detected_peak_0", 49, 8), ("detected_retested_peak_0", 50, 5),
        ("detected_retested_peak_1", 50, 5), ("detected_peak_2", 51, 8)] := by
  refine ⟨[(0, .detected), (1, .belowCut), (2, .detected)],
    [⟨"detected_peak_0", 49, .all, .strong, 8, 1, .num (9 / 2), 1, 1, 1⟩, ⟨"detected_retested_peak_0", 50, .all, .weak, 5, 1, .num 3, -1, -1, -1⟩,
     ⟨"detected_retested_peak_1", 50, .all, .weak, 5, 1, .num 3, -1, -1, -1⟩, ⟨"detected_peak_2", 51, .all, .strong, 8, 1, .num (9 / 2), 1, 1, 1⟩], ?_, rfl, ?_⟩
  · decide +kernel
  · rfl

/-- The hypotheses of C121 hold of this spectrum. -/
example : WF exTwo ∧ Within exTwo [(1, 3), (4, 8), (9, 11)] ∧ (0 : ℚ) ≤ exTwoPrm.win ∧ Sorts exSort := by
  refine ⟨⟨?_, rfl, Or.inl rfl⟩, ?_, by norm_num [exTwoPrm], exSort_sorts⟩
  · unfold SAxis.Increasing exTwo
    decide +kernel
  · intro r hr
    simp only [List.mem_cons, List.not_mem_nil, or_false] at hr
    rcases hr with rfl | rfl | rfl <;> simp [exTwo]

/-- **C121, false of the code** "The detection succeeds": when the interval of a strong line covers the first sample, the indices in the spectrum
without strong lines are one too high, and a weak peak at the end of the spectrum makes the whole detection fail. -/
theorem C121_first_sample_counterexample :
    compute exSort exTwoPrm ⟨exTwo.axis.tail.take 8, exTwo.flux.tail.take 8, exTwo.err.tail.take 8⟩ exTwoFit [(0, 2), (3, 7)] [(0, 0), (1, 1)] =
      .throw .INTERNAL_ERROR := by decide +kernel

/-- **C121, false of the code** Without errors, a strong line on a flat continuum has an infinite ratio, and the interval to exclude around it is
the conversion of an infinite number to an integer. -/
theorem C121_infinite_counterexample :
    compute exSort { exTwoPrm with cut := 2 } ⟨exTwo.axis, exTwo.flux, []⟩ exTwoFit [(1, 3), (4, 8)] [(0, 0), (1, 1)] = .ub := by decide +kernel

end LineDetect
end Amazed
