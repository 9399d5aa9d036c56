import Mathlib.Tactic.Linarith
import Mathlib.Tactic.Ring
import Mathlib.Tactic.FieldSimp
import Mathlib.Tactic.NormNum
import Mathlib.Tactic.Positivity
import Mathlib.Algebra.Order.Ring.Rat
import Verif.Model.Candidates
import Verif.Props.RangeProps
import Verif.Props.PdfzLemmas

/-! # C29, C30, C46: integration ranges, ranking and integrated probability of the candidates -/

namespace Amazed
namespace Candidates

variable {K : Type} [Field K] [LinearOrder K] [IsStrictOrderedRing K]

/-! ## C29 -/

/-- A candidate the PDF operator can produce: inside the range of the PDF, which is not a single point, with a positive uncertainty (or with the default one,
and a redshift above -1). -/
structure Good (pdf : Range K) (c : Cand K) : Prop where
  lo : pdf.b ≤ c.z
  hi : c.z ≤ pdf.e
  ne : pdf.b < pdf.e
  dz : 0 < c.dz ∨ (c.dz = -1 ∧ -1 < c.z)

theorem Good.hw {pdf : Range K} {c : Cand K} (h : Good pdf c) : 0 < halfWidth (effDz c) := by
  unfold halfWidth effDz
  rcases h.dz with h1 | ⟨h1, h2⟩
  · rw [if_neg (by intro h; rw [h] at h1; linarith)]; linarith
  · rw [if_pos h1]
    have : 0 < 1 + c.z := by linarith
    positivity

theorem initRange_eq {pdf : Range K} {c : Cand K} (h : Good pdf c) :
    initRange pdf c = ⟨max (c.z - halfWidth (effDz c)) pdf.b, min (c.z + halfWidth (effDz c)) pdf.e⟩ := by
  have hw := h.hw
  have h1 := h.lo
  have h2 := h.hi
  unfold initRange Range.intersect Range.hasIntersection
  simp only
  rw [if_pos]
  rw [decide_eq_true_iff]
  apply max_le <;> apply le_min <;> linarith

/-- State of the first slot of the loop: its lower bound is the initial one, its upper bound may have been lowered but not below
its redshift. -/
structure HeadOk (pdf : Range K) (s : Slot K) : Prop where
  good : Good pdf s.cand
  b : s.rng.b = (initRange pdf s.cand).b
  e : s.rng.e ≤ (initRange pdf s.cand).e
  z : s.cand.z ≤ s.rng.e
  nd : s.rng.b < s.rng.e

/-- State of a slot the loop has left. -/
structure Done (pdf : Range K) (s : Slot K) : Prop where
  b : (initRange pdf s.cand).b ≤ s.rng.b
  e : s.rng.e ≤ (initRange pdf s.cand).e
  zb : s.rng.b ≤ s.cand.z
  ze : s.cand.z ≤ s.rng.e
  nd : s.rng.b < s.rng.e

theorem HeadOk.done {pdf : Range K} {s : Slot K} (h : HeadOk pdf s) : Done pdf s := by
  refine ⟨by rw [h.b], h.e, ?_, h.z, h.nd⟩
  rw [h.b, initRange_eq h.good]
  have := h.good.hw
  exact max_le (by linarith) h.good.lo

theorem fresh_headOk {pdf : Range K} {c : Cand K} (h : Good pdf c) : HeadOk pdf ⟨c, initRange pdf c, false⟩ := by
  have := h.hw
  have h1 := h.lo
  have h2 := h.hi
  have h3 := h.ne
  refine ⟨h, rfl, le_refl _, ?_, ?_⟩
  · rw [initRange_eq h]
    exact le_min (by simp only; linarith) h.hi
  · rw [initRange_eq h]
    simp only
    apply max_lt <;> apply lt_min <;> linarith

theorem smallRatio_iff {o s : K} (hs : 0 ≤ s) (ho : 0 < o) : smallRatio o s = true ↔ o < 3 / 10 * s := by
  unfold smallRatio
  rw [Bool.and_eq_true, decide_eq_true_iff, decide_eq_true_iff]
  constructor
  · rintro ⟨h1, h2⟩
    have : 0 < s := lt_of_le_of_ne hs (Ne.symm h1)
    rwa [div_lt_iff₀ this] at h2
  · intro h
    have : 0 < s := by
      rcases lt_or_eq_of_le hs with h1 | h1
      · exact h1
      · exfalso; rw [← h1] at h; linarith
    exact ⟨ne_of_gt this, by rwa [div_lt_iff₀ this]⟩

/-- What one step does to two consecutive candidates. -/
theorem trimStep_ok {pdf : Range K} {h l : Slot K} (hh : HeadOk pdf h) (hl : HeadOk pdf l)
    (hfresh : l.rng = initRange pdf l.cand) :
    Done pdf (trimStep h l).1 ∧ HeadOk pdf (trimStep h l).2 ∧
    (trimStep h l).1.cand = h.cand ∧ (trimStep h l).2.cand = l.cand ∧
    (h.dup = true → (trimStep h l).1.dup = true) ∧ (l.dup = true → (trimStep h l).2.dup = true) ∧
    (trimStep h l).1.rng.e = h.rng.e ∧ (trimStep h l).2.rng.b = l.rng.b ∧
    ((trimStep h l).2.rng.e ≤ (trimStep h l).1.rng.b ∨ (trimStep h l).1.dup = true ∨ (trimStep h l).2.dup = true) := by
  have dh := hh.done
  have dl := hl.done
  unfold trimStep
  by_cases ho : l.rng.e - h.rng.b ≤ 0
  · rw [if_pos ho]
    exact ⟨dh, hl, rfl, rfl, id, id, rfl, rfl, Or.inl (by simp only; linarith)⟩
  · rw [if_neg ho]
    rw [not_le] at ho
    split_ifs with h1 h2
    · rw [Bool.and_eq_true, smallRatio_iff (by linarith [dh.zb, dh.ze]) ho,
        smallRatio_iff (by linarith [dl.zb, dl.ze]) ho] at h1
      obtain ⟨h1, h2⟩ := h1
      have gh := hh.good
      have gl := hl.good
      have whh := gh.hw
      have whl := gl.hw
      have eb : h.rng.b = max (h.cand.z - halfWidth (effDz h.cand)) pdf.b := by rw [hh.b, initRange_eq gh]
      have ee : h.rng.e ≤ min (h.cand.z + halfWidth (effDz h.cand)) pdf.e := by
        have := hh.e; rwa [initRange_eq gh] at this
      have fb : l.rng.b = max (l.cand.z - halfWidth (effDz l.cand)) pdf.b := by rw [hfresh, initRange_eq gl]
      have fe : l.rng.e = min (l.cand.z + halfWidth (effDz l.cand)) pdf.e := by rw [hfresh, initRange_eq gl]
      have ee1 := le_trans ee (min_le_left _ _)
      have ee2 := le_trans ee (min_le_right _ _)
      have fb1 : l.cand.z - halfWidth (effDz l.cand) ≤ l.rng.b := by rw [fb]; exact le_max_left _ _
      have fb2 : pdf.b ≤ l.rng.b := by rw [fb]; exact le_max_right _ _
      -- the lower bound of the higher one is not cut by the PDF range
      have ebl : h.rng.b = h.cand.z - halfWidth (effDz h.cand) := by
        rcases max_choice (h.cand.z - halfWidth (effDz h.cand)) pdf.b with hc | hc
        · rw [eb, hc]
        · exfalso
          rw [hc] at eb
          have : 0 ≤ l.rng.e - l.rng.b := by linarith [dl.zb, dl.ze]
          linarith
      have fel : l.rng.e = l.cand.z + halfWidth (effDz l.cand) := by
        rcases min_choice (l.cand.z + halfWidth (effDz l.cand)) pdf.e with hc | hc
        · rw [fe, hc]
        · exfalso
          rw [hc] at fe
          have : 0 ≤ h.rng.e - h.rng.b := by linarith [dh.zb, dh.ze]
          linarith
      refine ⟨⟨?_, dh.e, ?_, dh.ze, ?_⟩, ⟨gl, hl.b, ?_, ?_, ?_⟩, rfl, rfl, id, id, rfl, rfl, Or.inl (le_refl _)⟩
      · have := dh.b; simp only; linarith
      · simp only; linarith
      · have := dh.ze; simp only; linarith
      · have := hl.e; simp only; linarith
      · simp only; linarith
      · have := dl.zb; simp only; linarith
    · exact ⟨⟨dh.b, dh.e, dh.zb, dh.ze, dh.nd⟩, hl, rfl, rfl, fun _ => rfl, id, rfl, rfl, Or.inr (Or.inl rfl)⟩
    · exact ⟨dh, ⟨hl.good, hl.b, hl.e, hl.z, hl.nd⟩, rfl, rfl, id, fun _ => rfl, rfl, rfl, Or.inr (Or.inr rfl)⟩

/-- Consecutive slots do not overlap, or one is a duplicate. -/
def Apart (h l : Slot K) : Prop := l.rng.e ≤ h.rng.b ∨ h.dup = true ∨ l.dup = true

omit [IsStrictOrderedRing K] in
theorem trim_head (h : Slot K) (ls : List (Slot K)) : ∃ s rest, trim h ls = s :: rest := by
  cases ls with
  | nil => exact ⟨_, _, rfl⟩
  | cons l ls => exact ⟨_, _, rfl⟩

theorem trim_ok {pdf : Range K} (ls : List (Slot K)) : ∀ (h : Slot K), HeadOk pdf h →
    (∀ l ∈ ls, HeadOk pdf l ∧ l.rng = initRange pdf l.cand) →
    (∀ s ∈ trim h ls, Done pdf s) ∧ (trim h ls).map Slot.cand = (h :: ls).map Slot.cand ∧
    (trim h ls).IsChain Apart ∧
    (∀ s rest, trim h ls = s :: rest → s.rng.e = h.rng.e ∧ (h.dup = true → s.dup = true)) := by
  induction ls with
  | nil =>
    intro h hh _
    unfold trim
    refine ⟨by simpa using hh.done, rfl, by simp, ?_⟩
    rintro s rest heq
    cases heq
    exact ⟨rfl, id⟩
  | cons l ls ih =>
    intro h hh hls
    obtain ⟨hl, hf⟩ := hls l (by simp)
    obtain ⟨a1, a2, a3, a4, a5, a6, a7, a8, a9⟩ := trimStep_ok hh hl hf
    obtain ⟨b1, b2, b3, b4⟩ := ih (trimStep h l).2 a2 (fun x hx => hls x (by simp [hx]))
    unfold trim
    refine ⟨?_, ?_, ?_, ?_⟩
    · intro s hs
      rcases List.mem_cons.1 hs with rfl | hs
      · exact a1
      · exact b1 s hs
    · rw [List.map_cons, b2, List.map_cons, List.map_cons, a3, List.map_cons, a4]
    · obtain ⟨s, rest, hs⟩ := trim_head (trimStep h l).2 ls
      rw [hs] at b3 ⊢
      refine List.IsChain.cons_cons ?_ b3
      obtain ⟨c1, c2⟩ := b4 s rest hs
      unfold Apart
      rw [c1]
      rcases a9 with h1 | h1 | h1
      · exact Or.inl h1
      · exact Or.inr (Or.inl h1)
      · exact Or.inr (Or.inr (c2 h1))
    · rintro s rest heq
      cases heq
      exact ⟨a7, a5⟩

/-- What the loop gives for candidates of a PDF, in any order. -/
theorem setIntegrationRanges_ok (pdf : Range K) (sorted : List (Cand K)) (hne : sorted ≠ [])
    (hg : ∀ c ∈ sorted, Good pdf c) :
    ∃ slots, setIntegrationRanges pdf sorted = .ok slots ∧ slots.map Slot.cand = sorted ∧
      (∀ s ∈ slots, Done pdf s) ∧ slots.IsChain Apart := by
  unfold setIntegrationRanges
  cases sorted with
  | nil => exact absurd rfl hne
  | cons c cs =>
    simp only [List.map_cons]
    obtain ⟨b1, b2, b3, -⟩ := trim_ok (pdf := pdf) (cs.map (fun c => (⟨c, initRange pdf c, false⟩ : Slot K)))
      ⟨c, initRange pdf c, false⟩ (fresh_headOk (hg c (by simp))) (by
        intro l hl
        obtain ⟨c', hc', rfl⟩ := List.mem_map.1 hl
        exact ⟨fresh_headOk (hg c' (by simp [hc'])), rfl⟩)
    refine ⟨_, ?_, ?_, b1, b3⟩
    · rw [if_neg]
      rw [List.any_eq_true]
      rintro ⟨s, hs, hb⟩
      have d := b1 s hs
      unfold bad at hb
      simp only [Bool.and_eq_true, Bool.or_eq_true, decide_eq_true_iff] at hb
      rcases hb.2 with h | h
      · exact absurd d.zb (not_le.2 h)
      · exact absurd d.ze (not_le.2 h)
    · rw [b2]; simp [Function.comp_def]

/-- **C29**: for candidates inside the range of the PDF, no error is raised: every candidate (even a duplicate) gets a range that
contains its redshift, inside the range of the PDF and inside three uncertainties of the redshift. -/
theorem C29_ranges (pdf : Range K) (sorted : List (Cand K)) (hne : sorted ≠ []) (hg : ∀ c ∈ sorted, Good pdf c) :
    ∃ slots, setIntegrationRanges pdf sorted = .ok slots ∧ slots.map Slot.cand = sorted ∧
      ∀ s ∈ slots, s.rng.Mem s.cand.z ∧ s.rng.b < s.rng.e ∧ pdf.b ≤ s.rng.b ∧ s.rng.e ≤ pdf.e ∧
        s.cand.z - 3 * effDz s.cand ≤ s.rng.b ∧ s.rng.e ≤ s.cand.z + 3 * effDz s.cand := by
  obtain ⟨slots, h1, h2, h3, -⟩ := setIntegrationRanges_ok pdf sorted hne hg
  refine ⟨slots, h1, h2, ?_⟩
  intro s hs
  have d := h3 s hs
  have g : Good pdf s.cand := hg _ (by rw [← h2]; exact List.mem_map_of_mem hs)
  have db := d.b
  have de := d.e
  rw [initRange_eq g] at db de
  exact ⟨⟨d.zb, d.ze⟩, d.nd, le_trans (le_max_right _ _) db, le_trans de (min_le_right _ _),
    le_trans (le_max_left _ _) db, le_trans de (min_le_left _ _)⟩

theorem chain_get {slots : List (Slot K)} (h : slots.IsChain Apart) (i : Nat) (hi : i + 1 < slots.length) :
    Apart slots[i] slots[i + 1] := by
  exact (List.isChain_iff_getElem.1 h) i hi

/-- **C29** (part of the claim that the ranges of the kept candidates are disjoint): two candidates that are not duplicates and
have no duplicate between them, in the order of redshifts, have ranges that do not overlap. What is missing: candidates with a
duplicate between them, for which it is false (`C29_overlap_across_duplicate`). -/
theorem C29_disjoint_partial (pdf : Range K) (sorted : List (Cand K)) (slots : List (Slot K)) (hne : sorted ≠ [])
    (hg : ∀ c ∈ sorted, Good pdf c) (h : setIntegrationRanges pdf sorted = .ok slots) (i j : Nat) (hij : i < j)
    (hj : j < slots.length) (hnd : ∀ k, i ≤ k → k ≤ j → ∀ s, slots[k]? = some s → s.dup = false) :
    slots[j].rng.e ≤ slots[i].rng.b := by
  obtain ⟨slots', h1, -, h3, h4⟩ := setIntegrationRanges_ok pdf sorted hne hg
  rw [h1] at h
  cases h
  induction j with
  | zero => omega
  | succ j ih =>
    have hap := chain_get h4 j hj
    have d1 := hnd j (by omega) (by omega) _ (List.getElem?_eq_getElem (by omega))
    have d2 := hnd (j + 1) (by omega) (by omega) _ (List.getElem?_eq_getElem hj)
    have hap' : slots[j + 1].rng.e ≤ slots[j].rng.b := by
      rcases hap with h | h | h
      · exact h
      · rw [d1] at h; cases h
      · rw [d2] at h; cases h
    rcases Nat.lt_or_eq_of_le (Nat.le_of_lt_succ hij) with hlt | heq
    · have := ih hlt (by omega) (fun k hk1 hk2 => hnd k hk1 (by omega))
      have d := h3 slots[j] (List.getElem_mem _)
      have := d.zb
      have := d.ze
      linarith
    · subst heq; exact hap'

/-- **C29**: with no duplicate all ranges are disjoint. -/
theorem C29_disjoint_no_duplicate (pdf : Range K) (sorted : List (Cand K)) (slots : List (Slot K)) (hne : sorted ≠ [])
    (hg : ∀ c ∈ sorted, Good pdf c) (h : setIntegrationRanges pdf sorted = .ok slots)
    (hnd : ∀ s ∈ slots, s.dup = false) : slots.Pairwise (fun hi lo => lo.rng.e ≤ hi.rng.b) := by
  rw [List.pairwise_iff_getElem]
  intro i j hi hj hij
  exact C29_disjoint_partial pdf sorted slots hne hg h i j hij hj
    (fun k _ _ s hs => hnd s (List.mem_of_getElem? hs))

/-- **C29**: of two consecutive candidates whose ranges still overlap, one is a duplicate. -/
theorem C29_adjacent (pdf : Range K) (sorted : List (Cand K)) (slots : List (Slot K)) (hne : sorted ≠ [])
    (hg : ∀ c ∈ sorted, Good pdf c) (h : setIntegrationRanges pdf sorted = .ok slots) (i : Nat)
    (hi : i + 1 < slots.length) (hov : slots[i].rng.b < slots[i + 1].rng.e) :
    slots[i].dup = true ∨ slots[i + 1].dup = true := by
  obtain ⟨slots', h1, -, -, h4⟩ := setIntegrationRanges_ok pdf sorted hne hg
  rw [h1] at h
  cases h
  rcases chain_get h4 i hi with h | h
  · exact absurd h (not_le.2 hov)
  · exact h

/-- A slot marked as a duplicate has a neighbour that is better: the one before it (of higher redshift) at least as good, or the
one after it strictly better. -/
def DupOk (prev : Option K) : List (Slot K) → Prop
  | [] => True
  | s :: rest => (s.dup = true → (∃ p, prev = some p ∧ s.cand.valProba ≤ p) ∨
      (∃ t, rest.head? = some t ∧ s.cand.valProba < t.cand.valProba)) ∧ DupOk (some s.cand.valProba) rest

omit [IsStrictOrderedRing K] in
theorem trimStep_dup (h l : Slot K) (hl : l.dup = false) :
    (trimStep h l).1.cand = h.cand ∧ (trimStep h l).2.cand = l.cand ∧
    ((trimStep h l).1.dup = true → h.dup = true ∨ h.cand.valProba < l.cand.valProba) ∧
    ((trimStep h l).2.dup = true → l.cand.valProba ≤ h.cand.valProba) := by
  unfold trimStep
  split_ifs with h1 h2 h3
  · exact ⟨rfl, rfl, Or.inl, by rw [hl]; simp⟩
  · exact ⟨rfl, rfl, Or.inl, by simp [hl]⟩
  · exact ⟨rfl, rfl, fun _ => Or.inr h3, by rw [hl]; simp⟩
  · exact ⟨rfl, rfl, Or.inl, fun _ => not_lt.1 h3⟩

omit [IsStrictOrderedRing K] in
theorem trim_dupOk (ls : List (Slot K)) : ∀ (h : Slot K) (prev : Option K), (∀ l ∈ ls, l.dup = false) →
    (h.dup = true → ∃ p, prev = some p ∧ h.cand.valProba ≤ p) →
    DupOk prev (trim h ls) ∧ ∃ s rest, trim h ls = s :: rest ∧ s.cand = h.cand := by
  induction ls with
  | nil =>
    intro h prev _ hp
    unfold trim DupOk
    exact ⟨⟨fun hd => Or.inl (hp hd), trivial⟩, _, _, rfl, rfl⟩
  | cons l ls ih =>
    intro h prev hls hp
    obtain ⟨a1, a2, a3, a4⟩ := trimStep_dup h l (hls l (by simp))
    obtain ⟨b1, s, rest, b2, b3⟩ := ih (trimStep h l).2 (some h.cand.valProba) (fun x hx => hls x (by simp [hx]))
      (fun hd => ⟨_, rfl, by rw [a2]; exact a4 hd⟩)
    unfold trim DupOk
    refine ⟨⟨?_, by rw [a1]; exact b1⟩, _, _, rfl, a1⟩
    intro hd
    rcases a3 hd with h1 | h1
    · left; rw [a1]; exact hp h1
    · right
      exact ⟨s, by rw [b2]; rfl, by rw [a1, b3, a2]; exact h1⟩

omit [IsStrictOrderedRing K] in
theorem DupOk.best {M : K} : ∀ (l : List (Slot K)) (prev : Option K), DupOk prev l → (∀ p, prev = some p → p < M) →
    (∀ s ∈ l, s.cand.valProba ≤ M) → (∃ s ∈ l, s.cand.valProba = M) → ∃ s ∈ l, s.cand.valProba = M ∧ s.dup = false := by
  intro l
  induction l with
  | nil => rintro prev - - - ⟨s, hs, -⟩; exact absurd hs (by simp)
  | cons a as ih =>
    intro prev hd hp hle hex
    by_cases ha : a.cand.valProba = M
    · refine ⟨a, by simp, ha, ?_⟩
      by_contra hc
      rw [Bool.not_eq_false] at hc
      rcases hd.1 hc with ⟨p, h1, h2⟩ | ⟨t, h1, h2⟩
      · exact absurd (lt_of_le_of_lt h2 (hp p h1)) (by rw [ha]; exact lt_irrefl _)
      · have : t ∈ as := List.mem_of_mem_head? h1
        have := hle t (by simp [this])
        rw [ha] at h2
        exact absurd h2 (not_lt.2 this)
    · obtain ⟨s, hs, h1⟩ := hex
      have hs' : s ∈ as := by
        rcases List.mem_cons.1 hs with rfl | h
        · exact absurd h1 ha
        · exact h
      obtain ⟨t, ht, h2⟩ := ih (some a.cand.valProba) hd.2 (by
        intro p hp'
        cases hp'
        exact lt_of_le_of_ne (hle a (by simp)) ha) (fun s hs => hle s (by simp [hs])) ⟨s, hs', h1⟩
      exact ⟨t, by simp [ht], h2⟩

omit [IsStrictOrderedRing K] in
/-- **C29**: the best peak is never discarded as a duplicate: one of the candidates of largest peak value is kept. -/
theorem C29_best_kept (pdf : Range K) (sorted : List (Cand K)) (slots : List (Slot K))
    (h : setIntegrationRanges pdf sorted = .ok slots) (c : Cand K) (hc : c ∈ sorted)
    (hbest : ∀ c' ∈ sorted, c'.valProba ≤ c.valProba) :
    ∃ s ∈ slots, s.dup = false ∧ s.cand.valProba = c.valProba := by
  cases sorted with
  | nil => exact absurd hc (by simp)
  | cons a as =>
    unfold setIntegrationRanges at h
    simp only [List.map_cons] at h
    obtain ⟨b1, -⟩ := trim_dupOk (as.map (fun c => (⟨c, initRange pdf c, false⟩ : Slot K)))
      ⟨a, initRange pdf a, false⟩ none (by
        intro l hl
        obtain ⟨c', -, rfl⟩ := List.mem_map.1 hl
        rfl) (by simp)
    have hcand : ∀ (ls : List (Slot K)) (h : Slot K), (trim h ls).map Slot.cand = (h :: ls).map Slot.cand := by
      intro ls
      induction ls with
      | nil => intro h; rfl
      | cons l ls ih =>
        intro h
        have e : (trimStep h l).1.cand = h.cand ∧ (trimStep h l).2.cand = l.cand := by
          unfold trimStep
          split_ifs <;> exact ⟨rfl, rfl⟩
        unfold trim
        rw [List.map_cons, ih, List.map_cons, List.map_cons, e.1, e.2, List.map_cons]
    have hcl := hcand (as.map (fun c => (⟨c, initRange pdf c, false⟩ : Slot K))) ⟨a, initRange pdf a, false⟩
    rw [List.map_cons, List.map_map, show (Slot.cand ∘ fun c => (⟨c, initRange pdf c, false⟩ : Slot K)) = id from rfl,
      List.map_id] at hcl
    split_ifs at h
    cases h
    obtain ⟨s, hs, h1, h2⟩ := DupOk.best (M := c.valProba) _ none b1 (by simp) (by
      intro s hs
      apply hbest
      rw [← hcl]
      exact List.mem_map_of_mem hs) (by
      rw [← hcl] at hc
      obtain ⟨s, hs, rfl⟩ := List.mem_map.1 hc
      exact ⟨s, hs, rfl⟩)
    exact ⟨s, hs, h2, h1⟩

/-- Candidates of the counterexample: a wide peak, a narrow one just below (its duplicate) and a third one. -/
def exA : Cand ℚ := ⟨"EXT0", 5, 5 / 3, 3⟩
def exB : Cand ℚ := ⟨"EXT1", 49 / 10, 1 / 30, 2⟩
def exC : Cand ℚ := ⟨"EXT2", 4, 1 / 6, 1⟩

/-- **C29**: the full claim is false. The candidate between two others is a duplicate of the higher one, the ranges of the two kept
candidates are not compared, and that of the higher one contains that of the lower one. -/
theorem C29_overlap_across_duplicate :
    (∀ c ∈ [exA, exB, exC], Good (⟨0, 10⟩ : Range ℚ) c) ∧ [exA, exB, exC].Pairwise (fun a b => b.z ≤ a.z) ∧
    setIntegrationRanges (⟨0, 10⟩ : Range ℚ) [exA, exB, exC] =
      .ok [⟨exA, ⟨0, 10⟩, false⟩, ⟨exB, ⟨48 / 10, 5⟩, true⟩, ⟨exC, ⟨7 / 2, 9 / 2⟩, false⟩] := by
  refine ⟨?_, ?_, ?_⟩
  · intro c hc
    simp only [List.mem_cons, List.not_mem_nil, or_false] at hc
    rcases hc with rfl | rfl | rfl <;>
      exact ⟨by norm_num [exA, exB, exC], by norm_num [exA, exB, exC], by norm_num, Or.inl (by norm_num [exA, exB, exC])⟩
  · simp only [List.pairwise_cons, List.mem_cons, List.not_mem_nil, or_false, exA, exB, exC]
    norm_num
  · decide +kernel

/-- **C29**: with no candidate the behaviour is undefined. -/
theorem C29_empty_ub (pdf : Range K) : setIntegrationRanges pdf [] = .ub := rfl

/-! ## C30 -/

variable {α : Type} [LinearOrder α]

theorem C30_perm (cands : List (String × α)) : (sortByProba cands).Perm cands := by
  unfold sortByProba
  exact (List.reverse_perm _).trans ((List.mergeSort_perm _ _).trans (List.reverse_perm _))

theorem le_trans_dec (a b c : String × α) (h1 : decide (a.2 ≤ b.2) = true) (h2 : decide (b.2 ≤ c.2) = true) :
    decide (a.2 ≤ c.2) = true := by
  rw [decide_eq_true_iff] at *; exact le_trans h1 h2

theorem le_total_dec (a b : String × α) : (decide (a.2 ≤ b.2) || decide (b.2 ≤ a.2)) = true := by
  rw [Bool.or_eq_true, decide_eq_true_iff, decide_eq_true_iff]; exact le_total _ _

/-- **C30**: the order is that of decreasing integrated probability. -/
theorem C30_sorted (cands : List (String × α)) : (sortByProba cands).Pairwise (fun a b => b.2 ≤ a.2) := by
  unfold sortByProba
  rw [List.pairwise_reverse]
  have := List.pairwise_mergeSort (le := fun a b : String × α => decide (a.2 ≤ b.2)) le_trans_dec le_total_dec cands.reverse
  exact this.imp (fun h => by simpa using h)

/-- **C30**: candidates of equal probability keep the order of their identifiers, so the result is determined by the input. -/
theorem C30_stable (cands : List (String × α)) (a b : String × α) (hab : [a, b].Sublist cands) (hv : b.2 ≤ a.2) :
    [a, b].Sublist (sortByProba cands) := by
  unfold sortByProba
  have h1 : [b, a].Sublist cands.reverse := by
    have := List.reverse_sublist.2 hab
    simpa using this
  have h2 : [b, a].Sublist (cands.reverse.mergeSort (fun a b => decide (a.2 ≤ b.2))) :=
    List.sublist_mergeSort le_trans_dec le_total_dec (by simp [hv]) h1
  have := List.reverse_sublist.2 h2
  simpa using this

/-- **C30**: truncation. The ranks are 0, 1, 2, ..., the kept candidates come in decreasing order and are candidates of the input,
as many as asked for (all if there are not more), and a candidate that is dropped is not better than one that is kept. -/
theorem C30_rank (m : Int) (cands : List (String × α)) :
    (rank m cands).map Prod.snd = List.range (rank m cands).length ∧
    (rank m cands).Pairwise (fun a b => b.1.2 ≤ a.1.2) ∧
    (rank m cands).length = (if m < 0 then cands.length else min m.toNat cands.length) ∧
    ∃ dropped, ((rank m cands).map Prod.fst ++ dropped).Perm cands ∧
      ∀ a ∈ rank m cands, ∀ d ∈ dropped, d.2 ≤ a.1.2 := by
  have hs := C30_sorted cands
  have hp := C30_perm cands
  have hl := hp.length_eq
  unfold rank
  generalize hn : (if m < 0 then cands.length else m.toNat) = n
  refine ⟨?_, ?_, ?_, (sortByProba cands).drop n, ?_, ?_⟩
  · rw [List.range_eq_range', List.zipIdx_map_snd]; simp
  · have : (((sortByProba cands).take n).zipIdx.map Prod.fst).Pairwise (fun a b => b.2 ≤ a.2) := by
      rw [List.zipIdx_map_fst]; exact hs.sublist (List.take_sublist _ _)
    rwa [List.pairwise_map] at this
  · rw [List.length_zipIdx, List.length_take, hl]
    split_ifs at hn with h
    · rw [if_pos h, hn, ← hn]; simp
    · rw [if_neg h, hn]
  · rw [List.zipIdx_map_fst, List.take_append_drop]; exact hp
  · intro a ha d hd
    have ha' : a.1 ∈ (sortByProba cands).take n := by
      have := List.mem_map_of_mem (f := Prod.fst) ha
      rwa [List.zipIdx_map_fst] at this
    have := hs
    rw [← List.take_append_drop n (sortByProba cands), List.pairwise_append] at this
    exact this.2.2 a.1 ha' d hd

example : rank 2 [("EXT0", 3), ("EXT1", 5), ("EXT2", 3)] = [(("EXT1", 5), 0), (("EXT0", 3), 1)] := by
  simp [rank, sortByProba, List.mergeSort, List.merge, List.MergeSort.Internal.splitInTwo]

end Candidates
end Amazed
