import Verif.Model.Amp
import Mathlib.Tactic.Linarith
import Mathlib.Tactic.FieldSimp
import Mathlib.Tactic.Ring
import Mathlib.Data.Rat.Defs
import Mathlib.Algebra.Order.Ring.Rat
import Mathlib.Tactic.NormNum

set_option linter.unusedVariables false
set_option linter.unusedSectionVars false

/-! # C67: amplitudes of line model elements -/

namespace Amazed
namespace Amp

variable {K : Type} [Field K] [LinearOrder K] [IsStrictOrderedRing K]

/-- The vectors of an element have one entry per line (established by the constructor, elementparam.cpp:51-69, and
by `prepareSupport` for the flags). -/
structure WF (e : Elt K) : Prop where
  nominal : e.nominal.length = e.lines.length
  fa : e.fa.length = e.lines.length
  fastd : e.fastd.length = e.lines.length
  outL : e.outsideLine.length = e.lines.length
  gOutL : e.gOutsideLine.length = e.lines.length

/-- The elements differ only by their fitted amplitudes and errors. -/
def SameElt (e e' : Elt K) : Prop := ∃ fa fs, e' = { e with fa := fa, fastd := fs }

theorem SameElt.refl (e : Elt K) : SameElt e e := ⟨e.fa, e.fastd, rfl⟩

theorem SameElt.trans {a b c : Elt K} (h1 : SameElt a b) (h2 : SameElt b c) : SameElt a c := by
  obtain ⟨f, s, rfl⟩ := h1
  obtain ⟨f', s', rfl⟩ := h2
  exact ⟨f', s', rfl⟩

theorem get_of_lt {α : Type} {l : List α} {i : Nat} (h : i < l.length) : ∃ a, l[i]? = some a ∧ Res.at_ l i = .ok a :=
  ⟨l[i], List.getElem?_eq_getElem h, Res.at_of_lt h⟩

/-- Specification of the amplitude of a line of nominal amplitude `n` in an element of amplitude `a`: `a n`, cut at the
limit in absorption elements (unless the limit is disabled by a value that is not positive). -/
def lineAmp (e : Elt K) (a n : K) : K :=
  if e.isEmission = false ∧ 0 < e.absLimit then min (a * n) e.absLimit else a * n

theorem capAbs_eq (e : Elt K) (x : K) :
    capAbs e (some x) = some (if e.isEmission = false ∧ 0 < e.absLimit then min x e.absLimit else x) := by
  unfold capAbs vGt
  by_cases h1 : e.isEmission = false
  · by_cases h2 : 0 < e.absLimit
    · by_cases h3 : x > e.absLimit
      · simp [h1, h2, h3, min_eq_right h3.le]
      · simp [h1, h2, h3, min_eq_left (not_lt.1 h3)]
    · simp [h1, h2]
  · simp [h1]

/-- C67: setting the amplitude `a` (a number) of an element seen by some spectrum: each line seen by some spectrum gets
`a` times its nominal amplitude (cut at the absorption limit) and the error times its nominal amplitude; the others get a
NaN; nothing else changes. -/
theorem C67_set (e : Elt K) (a : K) (s : Option K) (hw : WF e) (hg : e.gOutside = false) :
    ∃ e', setAmplitude e (some a) s = .ok e' ∧ SameElt e e' ∧ WF e' ∧
      ∀ (i : Nat) n, e.nominal[i]? = some n →
        (e.gOutsideLine[i]? = some true → e'.fa[i]? = some none ∧ e'.fastd[i]? = some none) ∧
        (e.gOutsideLine[i]? = some false → e'.fa[i]? = some (some (lineAmp e a n)) ∧
          e'.fastd[i]? = some (s.map (· * n))) := by
  have htab : ∃ l, Res.tab (fun i => Res.at_ e.gOutsideLine i >>= fun o =>
      if o then .ok (none, none)
      else Res.at_ e.nominal i >>= fun n => .ok (capAbs e (vMul (some a) (some n)), vMul s (some n))) e.lines.length = .ok l := by
    refine ⟨_, Res.tab_ok (h := fun i => if e.gOutsideLine[i]? = some true then (none, none) else
      (capAbs e (vMul (some a) (e.nominal[i]?)), vMul s (e.nominal[i]?))) _ ?_⟩
    intro i hi
    obtain ⟨o, h1, h2⟩ := get_of_lt (l := e.gOutsideLine) (i := i) (by rw [hw.gOutL]; exact hi)
    obtain ⟨n, h3, h4⟩ := get_of_lt (l := e.nominal) (i := i) (by rw [hw.nominal]; exact hi)
    rw [h2, Res.bind_ok, h1]
    cases o
    · simp [h4, h3]
    · simp
  obtain ⟨l, hl⟩ := htab
  have hlen := Res.tab_length _ hl
  refine ⟨{ e with fa := l.map Prod.fst, fastd := l.map Prod.snd }, ?_, ⟨_, _, rfl⟩, ?_, ?_⟩
  · unfold setAmplitude
    rw [if_neg (by simp [hg]), hl, Res.bind_ok]
  · exact ⟨hw.nominal, by simp [hlen], by simp [hlen], hw.outL, hw.gOutL⟩
  · intro i n hn
    have hi : i < e.lines.length := by
      rw [← hw.nominal]; exact (List.getElem?_eq_some_iff.1 hn).1
    obtain ⟨p, hp, hg2⟩ := Res.tab_get _ hl i hi
    constructor
    · intro ho
      rw [(Res.at_eq_ok).2 ho, Res.bind_ok] at hg2
      simp only [if_true] at hg2
      cases hg2
      simp [hp]
    · intro ho
      rw [(Res.at_eq_ok).2 ho, Res.bind_ok] at hg2
      simp only [Bool.false_eq_true, if_false] at hg2
      rw [(Res.at_eq_ok).2 hn, Res.bind_ok] at hg2
      cases hg2
      simp only [vMul, List.getElem?_map, hp, Option.map_some, capAbs_eq, lineAmp, true_and]
      cases s <;> rfl

/-- C67: setting a NaN amplitude, or the amplitude of an element that no spectrum sees, makes every line NaN. -/
theorem C67_set_nan (e : Elt K) (A s : Option K) (h : A = none ∨ e.gOutside = true) :
    ∃ e', setAmplitude e A s = .ok e' ∧ SameElt e e' ∧ e'.fa.length = e.lines.length ∧ e'.fastd.length = e.lines.length ∧
      (∀ x ∈ e'.fa, x = none) ∧ (∀ x ∈ e'.fastd, x = none) := by
  refine ⟨{ e with fa := List.replicate e.lines.length none, fastd := List.replicate e.lines.length none }, ?_, ⟨_, _, rfl⟩,
    by simp, by simp, ?_, ?_⟩
  · unfold setAmplitude; rw [if_pos h]
  · intro x hx; exact (List.mem_replicate.1 hx).2
  · intro x hx; exact (List.mem_replicate.1 hx).2

theorem elementAmplitudeFrom_spec (e : Elt K) (hw : WF e) : ∀ (m i : Nat), i + m = e.lines.length →
    (∃ (k : Nat) (x n : K), i ≤ k ∧ e.fa[k]? = some (some x) ∧ e.nominal[k]? = some n ∧ n ≠ 0 ∧
      elementAmplitudeFrom e i m = .ok (some (x / n)) ∧
      ∀ j y n', i ≤ j → j < k → e.fa[j]? = some (some y) → e.nominal[j]? = some n' → n' = 0) ∨
    (elementAmplitudeFrom e i m = .ok none ∧
      ∀ j y n', i ≤ j → e.fa[j]? = some (some y) → e.nominal[j]? = some n' → n' = 0)
  | 0, i, h => by
    right
    refine ⟨rfl, ?_⟩
    intro j y n' hj h1 h2
    have := (List.getElem?_eq_some_iff.1 h2).1
    rw [hw.nominal] at this; omega
  | m + 1, i, h => by
    obtain ⟨n, h1, h2⟩ := get_of_lt (l := e.nominal) (i := i) (by rw [hw.nominal]; omega)
    obtain ⟨a, h3, h4⟩ := get_of_lt (l := e.fa) (i := i) (by rw [hw.fa]; omega)
    have ih := elementAmplitudeFrom_spec e hw m (i + 1) (by omega)
    have skip : ((∀ y, a = some y → n = 0) ∧ elementAmplitudeFrom e i (m + 1) = elementAmplitudeFrom e (i + 1) m) ∨
        (∃ x, a = some x ∧ n ≠ 0) := by
      cases a with
      | none => left; exact ⟨by simp, by simp only [elementAmplitudeFrom, h2, h4, Res.bind_ok]⟩
      | some x =>
        by_cases hn : n = 0
        · left
          refine ⟨fun _ _ => hn, ?_⟩
          simp only [elementAmplitudeFrom, h2, h4, Res.bind_ok]
          rw [if_neg (by simp [hn])]
        · right; exact ⟨x, rfl, hn⟩
    rcases skip with ⟨hs, he⟩ | ⟨x, rfl, hn⟩
    · have hcase : ∀ j y n', i ≤ j → ¬ (i + 1 ≤ j) → e.fa[j]? = some (some y) → e.nominal[j]? = some n' → n' = 0 := by
        intro j y n' hj hj2 hy hn'
        have : j = i := by omega
        subst this
        rw [h3] at hy; rw [h1] at hn'
        cases hy; cases hn'
        exact hs y rfl
      rcases ih with ⟨k, x, n', hk, p1, p2, p3, p4, p5⟩ | ⟨p1, p2⟩
      · left
        refine ⟨k, x, n', by omega, p1, p2, p3, by rw [he, p4], ?_⟩
        intro j y n'' hj hjk hy hn''
        by_cases hj2 : i + 1 ≤ j
        · exact p5 j y n'' hj2 hjk hy hn''
        · exact hcase j y n'' hj hj2 hy hn''
      · right
        refine ⟨by rw [he, p1], ?_⟩
        intro j y n'' hj hy hn''
        by_cases hj2 : i + 1 ≤ j
        · exact p2 j y n'' hj2 hy hn''
        · exact hcase j y n'' hj hj2 hy hn''
    · left
      refine ⟨i, x, n, le_refl _, h3, h1, hn, ?_, by intro j _ _ hj hj2; omega⟩
      simp only [elementAmplitudeFrom, h2, h4, Res.bind_ok]
      rw [if_pos hn]

/-- C67: the amplitude read back from an element is the one that was set, when some line seen by a spectrum has a nominal
amplitude that is not zero (and no absorption limit cut in). -/
theorem C67_get_set (e : Elt K) (a : K) (s : Option K) (hw : WF e) (hg : e.gOutside = false)
    (hcap : e.isEmission = true ∨ e.absLimit ≤ 0) (i : Nat) (n : K) (hn : e.nominal[i]? = some n) (hn0 : n ≠ 0)
    (hi : e.gOutsideLine[i]? = some false) :
    ∃ e', setAmplitude e (some a) s = .ok e' ∧ elementAmplitude e' = .ok (some a) := by
  obtain ⟨e', h1, ⟨f, g, rfl⟩, hw', hval⟩ := C67_set e a s hw hg
  refine ⟨_, h1, ?_⟩
  have hl : ∀ n, lineAmp e a n = a * n := by
    intro n; unfold lineAmp
    rw [if_neg]
    rintro ⟨h1, h2⟩
    rcases hcap with h | h
    · rw [h] at h1; cases h1
    · exact absurd h2 (not_lt.2 h)
  rcases elementAmplitudeFrom_spec _ hw' e.lines.length 0 (by simp) with ⟨k, x, n', _, p1, p2, p3, p4, _⟩ | ⟨_, p2⟩
  · unfold elementAmplitude
    rw [p4]
    have hk : k < e.gOutsideLine.length := by
      rw [hw.gOutL, ← hw.nominal]; exact (List.getElem?_eq_some_iff.1 p2).1
    obtain ⟨o, ho, _⟩ := get_of_lt hk
    cases o
    · have := ((hval k n' p2).2 ho).1
      rw [p1, hl] at this
      simp only [Option.some.injEq] at this
      rw [this, mul_div_cancel_right₀ _ p3]
    · have := ((hval k n' p2).1 ho).1
      rw [p1] at this
      simp at this
  · exact absurd (p2 i _ n (Nat.zero_le _) ((hval i n hn).2 hi).1 hn) hn0

/-- C67: limiting the amplitude of a line at most at the limit, or NaN, changes nothing. -/
theorem C67_limit_below (e : Elt K) (i : Nat) (x lim : Option K) (hx : e.fa[i]? = some x)
    (h : ∀ y L, x = some y → lim = some L → y ≤ L) : limit e i lim = .ok (e, false) := by
  unfold limit
  rw [(Res.at_eq_ok).2 hx, Res.bind_ok]
  have : vGt x lim = false := by
    unfold vGt
    cases x with
    | none => rfl
    | some y => cases lim with
      | none => rfl
      | some L => simp [h y L rfl rfl]
  rw [this]; rfl

theorem vMax_zero (L : K) : vMax (some 0) (some L) = some (max 0 L) := by
  unfold vMax vGt
  by_cases h : (0 : K) < L
  · simp [h, max_eq_right h.le]
  · simp [h, max_eq_left (not_lt.1 h)]

/-- C67: limiting a line above the limit sets it to the limit (or zero if the limit is negative), and sets every line of the
element to the amplitude that keeps the nominal ratios. -/
theorem C67_limit_above (e : Elt K) (i : Nat) (y L n : K) (hw : WF e) (hx : e.fa[i]? = some (some y))
    (hn : e.nominal[i]? = some n) (hn0 : n ≠ 0) (h : L < y) :
    ∃ e', limit e i (some L) = .ok (e', true) ∧ e' = { e with fa := e.nominal.map fun m => some (m * (max 0 L / n)) } ∧
      WF e' ∧ e'.fa[i]? = some (some (max 0 L)) := by
  have htab : Res.tab (fun k => Res.at_ e.nominal k >>= fun nk => .ok (vMul (some nk) (some (max 0 L / n)))) e.lines.length =
      .ok (e.nominal.map fun m => some (m * (max 0 L / n))) := by
    rw [Res.tab_ok (h := fun k => (e.nominal[k]?).map fun m => m * (max 0 L / n))]
    · congr 1
      apply List.ext_getElem?
      intro k
      by_cases hk : k < e.lines.length
      · obtain ⟨m, hm, _⟩ := get_of_lt (l := e.nominal) (i := k) (by rw [hw.nominal]; exact hk)
        simp [hk, hm]
      · simp [hk, hw.nominal]
    · intro k hk
      obtain ⟨m, hm, hm2⟩ := get_of_lt (l := e.nominal) (i := k) (by rw [hw.nominal]; exact hk)
      rw [hm2, Res.bind_ok, hm]; rfl
  refine ⟨_, ?_, rfl, ⟨hw.nominal, by simp [hw.nominal], hw.fastd, hw.outL, hw.gOutL⟩, ?_⟩
  · unfold limit
    rw [(Res.at_eq_ok).2 hx, Res.bind_ok]
    have : vGt (some y) (some L) = true := by simp [vGt, h]
    rw [if_pos this, (Res.at_eq_ok).2 hn, Res.bind_ok, vMax_zero]
    unfold vDiv
    simp only [hn0, if_false]
    rw [Res.bind_ok, htab, Res.bind_ok]
  · simp only [List.getElem?_map, hn, Option.map_some]
    rw [mul_div_cancel₀ _ hn0]

/-- C67, negative part: a line of zero nominal amplitude and amplitude limited below zero makes every line of the element NaN. -/
theorem C67_limit_zero_nominal_counterexample (e : Elt K) (i : Nat) (L : K) (hw : WF e) (hx : e.fa[i]? = some (some 0))
    (hn : e.nominal[i]? = some 0) (h : L < 0) :
    limit e i (some L) = .ok ({ e with fa := List.replicate e.lines.length none }, true) := by
  have htab : Res.tab (fun k => Res.at_ e.nominal k >>= fun nk => .ok (vMul (some nk) (none : Option K))) e.lines.length =
      .ok (List.replicate e.lines.length none) := by
    rw [Res.tab_ok (h := fun k => none)]
    · rw [List.map_const', List.length_range]
    · intro k hk
      obtain ⟨m, hm, hm2⟩ := get_of_lt (l := e.nominal) (i := k) (by rw [hw.nominal]; exact hk)
      rw [hm2, Res.bind_ok]; rfl
  unfold limit
  rw [(Res.at_eq_ok).2 hx, Res.bind_ok]
  have : vGt (some (0 : K)) (some L) = true := by simp [vGt, h]
  rw [if_pos this, (Res.at_eq_ok).2 hn, Res.bind_ok, vMax_zero, max_eq_left h.le]
  unfold vDiv
  simp only [if_true]
  rw [Res.bind_ok, htab, Res.bind_ok]

/-- C67: an element counts as null exactly when no line has a positive amplitude. -/
theorem C67_allNull (e : Elt K) : allNull e = true ↔ ∀ x, some x ∈ e.fa → x ≤ 0 := by
  unfold allNull
  simp only [Bool.not_eq_true', List.any_eq_false]
  constructor
  · intro h x hx
    have := h _ hx
    simpa [vGt] using this
  · intro h a ha
    cases a with
    | none => simp [vGt]
    | some x => simp [vGt, h x ha]

/-- Example for C67: an element with two lines seen and one line not seen, of nominal amplitudes 3, 1 and 2. -/
def exE : Elt ℚ :=
  { lines := [⟨"[OIII]a", .strong⟩, ⟨"[OIII]b", .weak⟩, ⟨"other", .weak⟩], type := .emission, isEmission := true,
    nominal := [3, 1, 2], fa := [none, none, none], fastd := [none, none, none], absLimit := 1, outside := false,
    outsideLine := [false, false, true], gOutside := false, gOutsideLine := [false, false, true] }

theorem exE_wf : WF exE := ⟨rfl, rfl, rfl, rfl, rfl⟩

example : ∃ e', setAmplitude exE (some 5) (some 1) = .ok e' ∧ e'.fa = [some 15, some 5, none] ∧
    elementAmplitude e' = .ok (some 5) := by
  refine ⟨{ exE with fa := [some 15, some 5, none], fastd := [some 3, some 1, none] }, ?_, rfl, ?_⟩ <;> decide +kernel

example : ∃ e' , limit { exE with fa := [some 15, some 5, none] } 1 (some 2) = .ok (e', true) ∧ e'.fa = [some 6, some 2, some 4] := by
  obtain ⟨e', h1, h2, _⟩ := C67_limit_above { exE with fa := [some 15, some 5, none] } 1 5 2 1 ⟨rfl, rfl, rfl, rfl, rfl⟩ rfl rfl
    (by norm_num) (by norm_num)
  refine ⟨e', h1, ?_⟩
  rw [h2]
  simp only [exE, List.map_cons, List.map_nil]
  norm_num

end Amp
end Amazed
