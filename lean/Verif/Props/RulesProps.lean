import Verif.Model.Rules
import Verif.Props.AmpProps

set_option linter.unusedVariables false
set_option linter.unusedSectionVars false

/-! # C68: amplitude rules -/

namespace Amazed
namespace Rules
open Amp

variable {K : Type} [Field K] [LinearOrder K] [IsStrictOrderedRing K]

/-- Specification: line `k` of element `i` is the first line whose name contains `tag`, in the first element that has one
among the elements of type `t` (of any type for `all`). -/
structure IsFirst (es : List (Elt K)) (tag : String) (t : LType) (i k : Nat) (e : Elt K) : Prop where
  elt : es[i]? = some e
  type : t = .all ∨ e.type = t
  line : ∃ l, e.lines[k]? = some l ∧ tag.toList <:+: l.name.toList
  firstLine : ∀ (j : Nat) l, j < k → e.lines[j]? = some l → ¬ tag.toList <:+: l.name.toList
  firstElt : ∀ (j : Nat) e', j < i → es[j]? = some e' → (t = .all ∨ e'.type = t) → ∀ l ∈ e'.lines, ¬ tag.toList <:+: l.name.toList

theorem lineIndex_some {e : Elt K} {tag : String} {k : Nat} (h : lineIndex e tag = some k) :
    (∃ l, e.lines[k]? = some l ∧ tag.toList <:+: l.name.toList) ∧
    (∀ (j : Nat) l, j < k → e.lines[j]? = some l → ¬ tag.toList <:+: l.name.toList) := by
  unfold lineIndex at h
  obtain ⟨hk, h1, h2⟩ := List.findIdx?_eq_some_iff_getElem.1 h
  refine ⟨⟨e.lines[k], List.getElem?_eq_getElem hk, by simpa [hasSub] using h1⟩, ?_⟩
  intro j l hj hl
  have := h2 j hj
  obtain ⟨h3, h4⟩ := List.getElem?_eq_some_iff.1 hl
  rw [h4] at this
  simpa [hasSub] using this

theorem lineIndex_none {e : Elt K} {tag : String} :
    lineIndex e tag = none ↔ ∀ l ∈ e.lines, ¬ tag.toList <:+: l.name.toList := by
  unfold lineIndex
  rw [List.findIdx?_eq_none_iff]
  simp [hasSub]

theorem eltMatches_iff {tag : String} {t : LType} {e : Elt K} :
    eltMatches tag t e = true ↔ (∃ l ∈ e.lines, tag.toList <:+: l.name.toList) ∧ (t = .all ∨ e.type = t) := by
  unfold eltMatches
  rw [Bool.and_eq_true, Bool.or_eq_true, decide_eq_true_iff, decide_eq_true_iff]
  have : (lineIndex e tag).isSome = true ↔ ∃ l ∈ e.lines, tag.toList <:+: l.name.toList := by
    cases h : lineIndex e tag with
    | none =>
      have := lineIndex_none.1 h
      simp only [Option.isSome_none, Bool.false_eq_true, false_iff]
      rintro ⟨l, hl, hl2⟩; exact this l hl hl2
    | some k =>
      obtain ⟨⟨l, hl, hl2⟩, _⟩ := lineIndex_some h
      simp only [Option.isSome_some, true_iff]
      exact ⟨l, List.mem_of_getElem? hl, hl2⟩
  rw [this]

/-- C68: the search of a line by name and type. -/
theorem C68_find (es : List (Elt K)) (tag : String) (t : LType) :
    (∃ i k e, findElementIndex es tag t = some (i, k) ∧ IsFirst es tag t i k e) ∨
    (findElementIndex es tag t = none ∧
      ∀ e ∈ es, (t = .all ∨ e.type = t) → ∀ l ∈ e.lines, ¬ tag.toList <:+: l.name.toList) := by
  unfold findElementIndex
  cases h : es.findIdx? (eltMatches tag t) with
  | none =>
    right
    refine ⟨rfl, ?_⟩
    intro e he ht l hl hsub
    have := (List.findIdx?_eq_none_iff.1 h) e he
    rw [eltMatches_iff.2 ⟨⟨l, hl, hsub⟩, ht⟩] at this
    cases this
  | some i =>
    left
    obtain ⟨hi, h1, h2⟩ := List.findIdx?_eq_some_iff_getElem.1 h
    obtain ⟨⟨l, hl, hsub⟩, ht⟩ := eltMatches_iff.1 h1
    cases hk : lineIndex es[i] tag with
    | none => exact absurd hsub (lineIndex_none.1 hk l hl)
    | some k =>
      obtain ⟨h3, h4⟩ := lineIndex_some hk
      refine ⟨i, k, es[i], ?_, List.getElem?_eq_getElem hi, ht, h3, h4, ?_⟩
      · simp [hk, List.getElem?_eq_getElem hi]
      · intro j e' hj he' ht' l' hl' hsub'
        obtain ⟨h5, h6⟩ := List.getElem?_eq_some_iff.1 he'
        have := h2 j hj
        rw [h6] at this
        exact this (eltMatches_iff.2 ⟨⟨l', hl', hsub'⟩, ht'⟩)

theorem IsFirst.unique {es : List (Elt K)} {tag : String} {t : LType} {i k i' k' : Nat} {e e' : Elt K}
    (h : IsFirst es tag t i k e) (h' : IsFirst es tag t i' k' e') : i = i' ∧ k = k' ∧ e = e' := by
  have hi : i = i' := by
    rcases Nat.lt_trichotomy i i' with hlt | heq | hlt
    · obtain ⟨l, hl, hs⟩ := h.line
      exact absurd hs (h'.firstElt i e hlt h.elt h.type l (List.mem_of_getElem? hl))
    · exact heq
    · obtain ⟨l, hl, hs⟩ := h'.line
      exact absurd hs (h.firstElt i' e' hlt h'.elt h'.type l (List.mem_of_getElem? hl))
  subst hi
  have he : e = e' := by have := h.elt.symm.trans h'.elt; simpa using this
  subst he
  refine ⟨rfl, ?_, rfl⟩
  rcases Nat.lt_trichotomy k k' with hlt | heq | hlt
  · obtain ⟨l, hl, hs⟩ := h.line
    exact absurd hs (h'.firstLine k l hlt hl)
  · exact heq
  · obtain ⟨l, hl, hs⟩ := h'.line
    exact absurd hs (h.firstLine k' l hlt hl)

theorem find_of_first {es : List (Elt K)} {tag : String} {t : LType} {i k : Nat} {e : Elt K}
    (h : IsFirst es tag t i k e) : findElementIndex es tag t = some (i, k) := by
  rcases C68_find es tag t with ⟨i', k', e', h1, h2⟩ | ⟨_, h2⟩
  · obtain ⟨rfl, rfl, rfl⟩ := h.unique h2
    exact h1
  · obtain ⟨l, hl, hs⟩ := h.line
    exact absurd hs (h2 e (List.mem_of_getElem? h.elt) h.type l (List.mem_of_getElem? hl))

theorem find_none {es : List (Elt K)} {tag : String} {t : LType}
    (h : ∀ e ∈ es, (t = .all ∨ e.type = t) → ∀ l ∈ e.lines, ¬ tag.toList <:+: l.name.toList) :
    findElementIndex es tag t = none := by
  rcases C68_find es tag t with ⟨i', k', e', h1, h2⟩ | ⟨h1, _⟩
  · obtain ⟨l, hl, hs⟩ := h2.line
    exact absurd hs (h e' (List.mem_of_getElem? h2.elt) h2.type l (List.mem_of_getElem? hl))
  · exact h1

/-! ## Two single lines -/

/-- C68, two lines: with both lines found in distinct single-line elements, the first in the wavelength range, and amplitudes
`a` and `b`: the second line gets `max(0, c a)` if `b` is above `c a` and the amplitudes are not both non positive; nothing
else changes. -/
theorem C68_two (t : LType) (tagA tagB : String) (c : K) (es : List (Elt K)) (ia la ib lb : Nat) (eA eB : Elt K) (a b n : K)
    (hA : IsFirst es tagA t ia la eA) (hB : IsFirst es tagB t ib lb eB) (hne : ia ≠ ib)
    (hsA : eA.lines.length = 1) (hsB : eB.lines.length = 1) (hout : eA.outside = false)
    (ha : eA.fa[la]? = some (some a)) (hb : eB.fa[lb]? = some (some b)) (hw : WF eB)
    (hn : eB.nominal[lb]? = some n) (hn0 : n ≠ 0) :
    ∃ es' lg, twoLines t tagA tagB c es = .ok (es', lg) ∧
      es' = es.set ib { eB with fa := [some (if c * a < b ∧ (0 < a ∨ 0 < b) then max 0 (c * a) else b)] } := by
  have hlb : lb = 0 := by
    have := (List.getElem?_eq_some_iff.1 hn).1
    rw [hw.nominal, hsB] at this; omega
  subst hlb
  have hfa : eB.fa = [some b] := by
    have h1 := hw.fa
    rw [hsB] at h1
    obtain ⟨x, hx⟩ := List.length_eq_one_iff.1 h1
    rw [hx] at hb ⊢
    simpa using hb
  have hnom : eB.nominal = [n] := by
    have h1 := hw.nominal
    rw [hsB] at h1
    obtain ⟨x, hx⟩ := List.length_eq_one_iff.1 h1
    rw [hx] at hn ⊢
    simpa using hn
  have hself : es.set ib { eB with fa := [some b] } = es := by
    have : ({ eB with fa := [some b] } : Elt K) = eB := by rw [← hfa]
    rw [this]
    obtain ⟨h1, h2⟩ := List.getElem?_eq_some_iff.1 hB.elt
    rw [← h2]; exact List.set_getElem_self h1
  have hun : ∀ lg, ¬ (c * a < b ∧ (0 < a ∨ 0 < b)) →
      ((.ok (es, lg) : Res (Out K)) = .ok (es.set ib { eB with fa := [some (if c * a < b ∧ (0 < a ∨ 0 < b) then max 0 (c * a) else b)] }, lg)) := by
    intro lg h; rw [if_neg h, hself]
  unfold twoLines
  rw [find_of_first hA, find_of_first hB]
  simp only [(Res.at_eq_ok).2 hA.elt, (Res.at_eq_ok).2 hB.elt, Res.bind_ok]
  rw [if_neg (by omega), hout]
  simp only [Bool.false_eq_true, if_false, (Res.at_eq_ok).2 ha, (Res.at_eq_ok).2 hb, Res.bind_ok]
  by_cases h0 : a ≤ 0 ∧ b ≤ 0
  · refine ⟨es, false, ?_, ?_⟩
    · rw [if_pos (by simp [vLe, h0.1, h0.2])]
    · rw [if_neg, hself]
      rintro ⟨_, h | h⟩
      · exact absurd h (not_lt.2 h0.1)
      · exact absurd h (not_lt.2 h0.2)
  · have h0' : 0 < a ∨ 0 < b := by
      by_contra hc
      push Not at hc
      exact h0 hc
    rw [if_neg (by simp only [vLe, Bool.and_eq_true, decide_eq_true_iff]; exact h0)]
    have hv : vMul (some c) (some a) = some (c * a) := rfl
    rw [hv]
    by_cases hlt : c * a < b
    · have hm : vMin (some (c * a)) (some b) = some (c * a) := by
        unfold vMin vGt; simp [hlt.le]
      rw [hm]
      rw [if_pos (by simp [vEq])]
      obtain ⟨e', h1, h2, _⟩ := C67_limit_above eB 0 b (c * a) n hw hb hn hn0 hlt
      rw [h1]
      refine ⟨_, true, rfl, ?_⟩
      rw [h2, if_pos ⟨hlt, h0'⟩, hnom]
      simp only [List.map_cons, List.map_nil]
      rw [mul_div_cancel₀ _ hn0]
    · have hle : b ≤ c * a := not_lt.1 hlt
      by_cases heq : b = c * a
      · have hm : vMin (some (c * a)) (some b) = some (c * a) := by
          unfold vMin vGt; simp [heq]
        rw [hm, if_pos (by simp [vEq])]
        rw [C67_limit_below eB 0 (some b) (some (c * a)) hb (by
          intro y L h1 h2; cases h1; cases h2; exact hle)]
        refine ⟨es.set ib eB, true, rfl, ?_⟩
        rw [if_neg (fun h => hlt h.1), ← hfa]
      · have hlt2 : b < c * a := lt_of_le_of_ne hle heq
        have hm : vMin (some (c * a)) (some b) = some b := by
          unfold vMin vGt; simp [hlt2]
        rw [hm, if_neg (by simp only [vEq, decide_eq_true_iff]; exact fun h => heq h.symm)]
        exact ⟨es, false, rfl, by rw [if_neg (fun h => hlt h.1), hself]⟩

/-- C68, two lines: the rule changes nothing when a line is missing, when both lines are in the same element, when an element
has several lines, or when the first line is outside the wavelength range. -/
theorem C68_two_skip (t : LType) (tagA tagB : String) (c : K) (es : List (Elt K))
    (h : (∀ e ∈ es, (t = .all ∨ e.type = t) → ∀ l ∈ e.lines, ¬ tagA.toList <:+: l.name.toList) ∨
      (∀ e ∈ es, (t = .all ∨ e.type = t) → ∀ l ∈ e.lines, ¬ tagB.toList <:+: l.name.toList) ∨
      (∃ ia la ib lb eA eB, IsFirst es tagA t ia la eA ∧ IsFirst es tagB t ib lb eB ∧
        (ia = ib ∨ 1 < eA.lines.length ∨ 1 < eB.lines.length ∨ eA.outside = true))) :
    twoLines t tagA tagB c es = .ok (es, false) := by
  unfold twoLines
  rcases C68_find es tagA t with ⟨ia, la, eA, hA1, hA⟩ | ⟨hA1, hA⟩
  · rw [hA1]
    simp only [(Res.at_eq_ok).2 hA.elt, Res.bind_ok]
    rcases C68_find es tagB t with ⟨ib, lb, eB, hB1, hB⟩ | ⟨hB1, hB⟩
    · rw [hB1]
      simp only [(Res.at_eq_ok).2 hB.elt, Res.bind_ok]
      rcases h with h | h | ⟨ia', la', ib', lb', eA', eB', hA', hB', h⟩
      · obtain ⟨l, hl, hs⟩ := hA.line
        exact absurd hs (h eA (List.mem_of_getElem? hA.elt) hA.type l (List.mem_of_getElem? hl))
      · obtain ⟨l, hl, hs⟩ := hB.line
        exact absurd hs (h eB (List.mem_of_getElem? hB.elt) hB.type l (List.mem_of_getElem? hl))
      · obtain ⟨rfl, rfl, rfl⟩ := hA.unique hA'
        obtain ⟨rfl, rfl, rfl⟩ := hB.unique hB'
        by_cases hc : eA.lines.length > 1 ∨ eB.lines.length > 1 ∨ ia = ib
        · rw [if_pos hc]
        · rw [if_neg hc]
          push Not at hc
          have : eA.outside = true := by
            rcases h with h | h | h | h
            · exact absurd h hc.2.2
            · omega
            · omega
            · exact h
          rw [this]; rfl
    · rw [hB1]
  · rw [hA1]

/-! ## Ratio range -/

/-- Specification: inverse-variance weight, zero for a null error. -/
def wSpec (s r2 : K) : K := if s = 0 then 0 else 1 / (s * s * r2)

theorem vGt_abs (x y z : K) : vGt (vAbs (some x)) (vAbs (vMul (some y) (some z))) = decide (|y * z| < |x|) := rfl

theorem weight_eq (s r2 : K) (h : r2 ≠ 0) : weight (some s) r2 = .ok (some (wSpec s r2)) := by
  unfold weight wSpec vEq
  by_cases hs : s = 0
  · simp [hs]
  · simp [hs, vMul, vDiv, h]

/-- C68, ratio range: amplitudes within a factor `R` of each other are left as they are. -/
theorem C68_ratio_in_range (t : LType) (tagA tagB : String) (R : K) (es : List (Elt K)) (ia la ib lb : Nat) (eA eB : Elt K) (a b : K)
    (hA : IsFirst es tagA t ia la eA) (hB : IsFirst es tagB t ib lb eB) (hwA : WF eA) (hwB : WF eB)
    (ha : eA.fa[la]? = some (some a)) (hb : eB.fa[lb]? = some (some b))
    (h1 : |a| ≤ |b * R|) (h2 : |b| ≤ |a * R|) :
    ratioRange t tagA tagB R es = .ok (es, false) := by
  have hl : la < eA.lines.length := by rw [← hwA.fa]; exact (List.getElem?_eq_some_iff.1 ha).1
  have hl' : lb < eB.lines.length := by rw [← hwB.fa]; exact (List.getElem?_eq_some_iff.1 hb).1
  obtain ⟨sa, hsa, hsa2⟩ := get_of_lt (l := eA.fastd) (i := la) (by rw [hwA.fastd]; exact hl)
  obtain ⟨sb, hsb, hsb2⟩ := get_of_lt (l := eB.fastd) (i := lb) (by rw [hwB.fastd]; exact hl')
  unfold ratioRange
  rw [find_of_first hA, find_of_first hB]
  simp only [(Res.at_eq_ok).2 hA.elt, (Res.at_eq_ok).2 hB.elt, Res.bind_ok]
  rw [if_neg (by omega), if_neg (by omega)]
  split
  · rfl
  · split
    · rfl
    · simp only [(Res.at_eq_ok).2 ha, (Res.at_eq_ok).2 hb, hsa2, hsb2, Res.bind_ok]
      have e1 : vGt (vAbs (some a)) (vAbs (vMul (some b) (some R))) = false := by
        rw [vGt_abs, decide_eq_false (not_lt.2 h1)]
      have e2 : vGt (vAbs (some b)) (vAbs (vMul (some a) (some R))) = false := by
        rw [vGt_abs, decide_eq_false (not_lt.2 h2)]
      rw [e1, e2]; rfl

theorem ratioCorrect_eq (R : K) (hR : 0 < R) (es : List (Elt K)) (i1 i2 : Nat) (a sa b sb : K) (e1 e2 : Elt K)
    (he1 : es[i1]? = some e1) (he2 : es[i2]? = some e2) (hne : i1 ≠ i2) (hs : sa ≠ 0 ∨ sb ≠ 0)
    (e1' e2' : Elt K)
    (hs1 : setAmplitude e1 (some ((a * wSpec sa 1 + R * b * wSpec sb (R * R)) / (wSpec sa 1 + wSpec sb (R * R)))) (some sa) = .ok e1')
    (hs2 : setAmplitude e2 (some ((a * wSpec sa 1 + R * b * wSpec sb (R * R)) / (wSpec sa 1 + wSpec sb (R * R)) / R)) (some sb) = .ok e2') :
    ratioCorrect R es i1 i2 (some a) (some sa) (some b) (some sb) = .ok ((es.set i1 e1').set i2 e2', true) := by
  have hw1 : 0 ≤ wSpec sa (1 : K) := by
    unfold wSpec; split
    · exact le_refl _
    · rw [mul_one]; exact div_nonneg zero_le_one (mul_self_nonneg _)
  have hw2 : 0 ≤ wSpec sb (R * R) := by
    unfold wSpec; split
    · exact le_refl _
    · exact div_nonneg zero_le_one (mul_nonneg (mul_self_nonneg _) (mul_self_nonneg _))
  have hsum : wSpec sa 1 + wSpec sb (R * R) ≠ 0 := by
    rcases hs with h | h
    · have : 0 < wSpec sa (1 : K) := by
        unfold wSpec; rw [if_neg h, mul_one]
        exact div_pos zero_lt_one (mul_self_pos.2 h)
      exact (add_pos_of_pos_of_nonneg this hw2).ne'
    · have : 0 < wSpec sb (R * R) := by
        unfold wSpec; rw [if_neg h]
        exact div_pos zero_lt_one (mul_pos (mul_self_pos.2 h) (mul_pos hR hR))
      exact (add_pos_of_nonneg_of_pos hw1 this).ne'
  have hR0 : R ≠ 0 := hR.ne'
  have heq : a * wSpec sa 1 + b * wSpec sb (R * R) * R = a * wSpec sa 1 + R * b * wSpec sb (R * R) := by ring
  unfold ratioCorrect
  rw [weight_eq sa 1 one_ne_zero, Res.bind_ok, weight_eq sb (R * R) (mul_ne_zero hR0 hR0), Res.bind_ok]
  simp only [vMul, vAdd, vDiv, hsum, if_false, Res.bind_ok, hR0, heq, (Res.at_eq_ok).2 he1, hs1]
  have : (es.set i1 e1')[i2]? = some e2 := by rw [List.getElem?_set_ne hne]; exact he2
  rw [(Res.at_eq_ok).2 this, Res.bind_ok, hs2, Res.bind_ok]

/-- C68, ratio range: when the first line is more than `R` times the second, with errors `sa` and `sb` not both zero, the first
element gets the amplitude `x`, the mean of `a` and `R b` weighted by their inverse variances, and the second `x / R`;
nothing else changes. -/
theorem C68_ratio_first_high (t : LType) (tagA tagB : String) (R : K) (hR : 0 < R) (es : List (Elt K)) (ia la ib lb : Nat)
    (eA eB : Elt K) (a b sa sb : K)
    (hA : IsFirst es tagA t ia la eA) (hB : IsFirst es tagB t ib lb eB) (hne : ia ≠ ib) (hwA : WF eA) (hwB : WF eB)
    (hoA : eA.outside = false) (hoB : eB.outside = false) (hgA : eA.gOutside = false) (hgB : eB.gOutside = false)
    (ha : eA.fa[la]? = some (some a)) (hb : eB.fa[lb]? = some (some b))
    (hsa : eA.fastd[la]? = some (some sa)) (hsb : eB.fastd[lb]? = some (some sb)) (hs : sa ≠ 0 ∨ sb ≠ 0)
    (h : |b * R| < |a|) :
    ∃ eA' eB' x, x = (a * wSpec sa 1 + R * b * wSpec sb (R * R)) / (wSpec sa 1 + wSpec sb (R * R)) ∧
      setAmplitude eA (some x) (some sa) = .ok eA' ∧ setAmplitude eB (some (x / R)) (some sb) = .ok eB' ∧
      ratioRange t tagA tagB R es = .ok ((es.set ia eA').set ib eB', true) := by
  obtain ⟨eA', h1, _⟩ := C67_set eA ((a * wSpec sa 1 + R * b * wSpec sb (R * R)) / (wSpec sa 1 + wSpec sb (R * R))) (some sa) hwA hgA
  obtain ⟨eB', h2, _⟩ := C67_set eB ((a * wSpec sa 1 + R * b * wSpec sb (R * R)) / (wSpec sa 1 + wSpec sb (R * R)) / R) (some sb) hwB hgB
  refine ⟨eA', eB', _, rfl, h1, h2, ?_⟩
  have hl : la < eA.lines.length := by rw [← hwA.fa]; exact (List.getElem?_eq_some_iff.1 ha).1
  have hl' : lb < eB.lines.length := by rw [← hwB.fa]; exact (List.getElem?_eq_some_iff.1 hb).1
  unfold ratioRange
  rw [find_of_first hA, find_of_first hB]
  simp only [(Res.at_eq_ok).2 hA.elt, (Res.at_eq_ok).2 hB.elt, Res.bind_ok]
  rw [if_neg (by omega), if_neg (by omega), if_neg hne, if_neg (by simp [hoA, hoB])]
  simp only [(Res.at_eq_ok).2 ha, (Res.at_eq_ok).2 hb, (Res.at_eq_ok).2 hsa, (Res.at_eq_ok).2 hsb, Res.bind_ok]
  have e1 : vGt (vAbs (some a)) (vAbs (vMul (some b) (some R))) = true := by
    rw [vGt_abs, decide_eq_true h]
  rw [if_pos e1]
  exact ratioCorrect_eq R hR es ia ib a sa b sb eA eB hA.elt hB.elt hne hs eA' eB' h1 h2

/-- C68, ratio range: the same with the second line too high. -/
theorem C68_ratio_second_high (t : LType) (tagA tagB : String) (R : K) (hR : 0 < R) (es : List (Elt K)) (ia la ib lb : Nat)
    (eA eB : Elt K) (a b sa sb : K)
    (hA : IsFirst es tagA t ia la eA) (hB : IsFirst es tagB t ib lb eB) (hne : ia ≠ ib) (hwA : WF eA) (hwB : WF eB)
    (hoA : eA.outside = false) (hoB : eB.outside = false) (hgA : eA.gOutside = false) (hgB : eB.gOutside = false)
    (ha : eA.fa[la]? = some (some a)) (hb : eB.fa[lb]? = some (some b))
    (hsa : eA.fastd[la]? = some (some sa)) (hsb : eB.fastd[lb]? = some (some sb)) (hs : sa ≠ 0 ∨ sb ≠ 0)
    (h0 : |a| ≤ |b * R|) (h : |a * R| < |b|) :
    ∃ eA' eB' x, x = (b * wSpec sb 1 + R * a * wSpec sa (R * R)) / (wSpec sb 1 + wSpec sa (R * R)) ∧
      setAmplitude eB (some x) (some sb) = .ok eB' ∧ setAmplitude eA (some (x / R)) (some sa) = .ok eA' ∧
      ratioRange t tagA tagB R es = .ok ((es.set ib eB').set ia eA', true) := by
  obtain ⟨eB', h1, _⟩ := C67_set eB ((b * wSpec sb 1 + R * a * wSpec sa (R * R)) / (wSpec sb 1 + wSpec sa (R * R))) (some sb) hwB hgB
  obtain ⟨eA', h2, _⟩ := C67_set eA ((b * wSpec sb 1 + R * a * wSpec sa (R * R)) / (wSpec sb 1 + wSpec sa (R * R)) / R) (some sa) hwA hgA
  refine ⟨eA', eB', _, rfl, h1, h2, ?_⟩
  have hl : la < eA.lines.length := by rw [← hwA.fa]; exact (List.getElem?_eq_some_iff.1 ha).1
  have hl' : lb < eB.lines.length := by rw [← hwB.fa]; exact (List.getElem?_eq_some_iff.1 hb).1
  unfold ratioRange
  rw [find_of_first hA, find_of_first hB]
  simp only [(Res.at_eq_ok).2 hA.elt, (Res.at_eq_ok).2 hB.elt, Res.bind_ok]
  rw [if_neg (by omega), if_neg (by omega), if_neg hne, if_neg (by simp [hoA, hoB])]
  simp only [(Res.at_eq_ok).2 ha, (Res.at_eq_ok).2 hb, (Res.at_eq_ok).2 hsa, (Res.at_eq_ok).2 hsb, Res.bind_ok]
  have e1 : vGt (vAbs (some a)) (vAbs (vMul (some b) (some R))) = false := by
    rw [vGt_abs, decide_eq_false (not_lt.2 h0)]
  have e2 : vGt (vAbs (some b)) (vAbs (vMul (some a) (some R))) = true := by
    rw [vGt_abs, decide_eq_true h]
  rw [e1]
  simp only [Bool.false_eq_true, if_false]
  rw [if_pos e2]
  exact ratioCorrect_eq R hR es ib ia b sb a sa eB eA hB.elt hA.elt (Ne.symm hne) (Or.symm hs) eB' eA' h1 h2

theorem wSpec_nonneg (s : K) {r2 : K} (h : 0 ≤ r2) : 0 ≤ wSpec s r2 := by
  unfold wSpec; split
  · exact le_refl _
  · exact div_nonneg zero_le_one (mul_nonneg (mul_self_nonneg _) h)

/-- C68, ratio range: the corrected amplitude lies between `a` and `R b` (for amplitudes of the same sign the rule never overshoots). -/
theorem C68_ratio_between (R a b sa sb : K) (hR : 0 < R) (hs : sa ≠ 0 ∨ sb ≠ 0) :
    min a (R * b) ≤ (a * wSpec sa 1 + R * b * wSpec sb (R * R)) / (wSpec sa 1 + wSpec sb (R * R)) ∧
    (a * wSpec sa 1 + R * b * wSpec sb (R * R)) / (wSpec sa 1 + wSpec sb (R * R)) ≤ max a (R * b) := by
  have hw1 : 0 ≤ wSpec sa (1 : K) := wSpec_nonneg sa zero_le_one
  have hw2 : 0 ≤ wSpec sb (R * R) := wSpec_nonneg sb (mul_self_nonneg R)
  have hsum : 0 < wSpec sa 1 + wSpec sb (R * R) := by
    rcases hs with h | h
    · exact add_pos_of_pos_of_nonneg (by
        unfold wSpec; rw [if_neg h, mul_one]; exact div_pos zero_lt_one (mul_self_pos.2 h)) hw2
    · exact add_pos_of_nonneg_of_pos hw1 (by
        unfold wSpec; rw [if_neg h]
        exact div_pos zero_lt_one (mul_pos (mul_self_pos.2 h) (mul_pos hR hR)))
  constructor
  · rw [le_div_iff₀ hsum]
    have h1 := mul_le_mul_of_nonneg_right (min_le_left a (R * b)) hw1
    have h2 := mul_le_mul_of_nonneg_right (min_le_right a (R * b)) hw2
    linarith
  · rw [div_le_iff₀ hsum]
    have h1 := mul_le_mul_of_nonneg_right (le_max_left a (R * b)) hw1
    have h2 := mul_le_mul_of_nonneg_right (le_max_right a (R * b)) hw2
    linarith

/-- C68, negative part: when both errors are zero the correction makes every amplitude of both elements NaN. -/
theorem C68_ratio_null_errors_counterexample (t : LType) (tagA tagB : String) (R : K) (hR : 0 < R) (es : List (Elt K)) (ia la ib lb : Nat)
    (eA eB : Elt K) (a b : K)
    (hA : IsFirst es tagA t ia la eA) (hB : IsFirst es tagB t ib lb eB) (hne : ia ≠ ib) (hwA : WF eA) (hwB : WF eB)
    (hoA : eA.outside = false) (hoB : eB.outside = false)
    (ha : eA.fa[la]? = some (some a)) (hb : eB.fa[lb]? = some (some b))
    (hsa : eA.fastd[la]? = some (some 0)) (hsb : eB.fastd[lb]? = some (some 0)) (h : |b * R| < |a|) :
    ∃ eA' eB', ratioRange t tagA tagB R es = .ok ((es.set ia eA').set ib eB', true) ∧
      (∀ x ∈ eA'.fa, x = none) ∧ (∀ x ∈ eB'.fa, x = none) := by
  obtain ⟨eA', h1, _, _, _, h3, _⟩ := C67_set_nan eA none (some 0) (Or.inl rfl)
  obtain ⟨eB', h2, _, _, _, h4, _⟩ := C67_set_nan eB none (some 0) (Or.inl rfl)
  refine ⟨eA', eB', ?_, h3, h4⟩
  have hl : la < eA.lines.length := by rw [← hwA.fa]; exact (List.getElem?_eq_some_iff.1 ha).1
  have hl' : lb < eB.lines.length := by rw [← hwB.fa]; exact (List.getElem?_eq_some_iff.1 hb).1
  have hR0 : R ≠ 0 := hR.ne'
  unfold ratioRange
  rw [find_of_first hA, find_of_first hB]
  simp only [(Res.at_eq_ok).2 hA.elt, (Res.at_eq_ok).2 hB.elt, Res.bind_ok]
  rw [if_neg (by omega), if_neg (by omega), if_neg hne, if_neg (by simp [hoA, hoB])]
  simp only [(Res.at_eq_ok).2 ha, (Res.at_eq_ok).2 hb, (Res.at_eq_ok).2 hsa, (Res.at_eq_ok).2 hsb, Res.bind_ok]
  have e1 : vGt (vAbs (some a)) (vAbs (vMul (some b) (some R))) = true := by
    rw [vGt_abs, decide_eq_true h]
  rw [if_pos e1]
  unfold ratioCorrect
  rw [weight_eq 0 1 one_ne_zero, Res.bind_ok, weight_eq 0 (R * R) (mul_ne_zero hR0 hR0), Res.bind_ok]
  have hz : ∀ r : K, wSpec (0 : K) r = 0 := by intro r; simp [wSpec]
  have he2 : (es.set ia eA')[ib]? = some eB := by rw [List.getElem?_set_ne hne]; exact hB.elt
  simp only [vMul, vAdd, vDiv, hz, mul_zero, zero_mul, add_zero, if_true, Res.bind_ok, (Res.at_eq_ok).2 hA.elt, h1,
    (Res.at_eq_ok).2 he2, h2]

end Rules
end Amazed
