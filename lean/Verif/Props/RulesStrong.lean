import Verif.Props.RulesProps

set_option linter.unusedVariables false
set_option linter.unusedSectionVars false

/-! # C68 (idempotence of the ratio rule), C69: strong lines higher than weak lines -/

namespace Amazed
namespace Rules
open Amp

variable {K : Type} [Field K] [LinearOrder K] [IsStrictOrderedRing K]

/-- The lists of elements differ only by amplitudes and errors. -/
def SameList (es es' : List (Elt K)) : Prop :=
  es'.length = es.length ∧ ∀ (j : Nat) e, es[j]? = some e → ∃ e', es'[j]? = some e' ∧ SameElt e e'

theorem SameList.refl (es : List (Elt K)) : SameList es es := ⟨rfl, fun j e h => ⟨e, h, SameElt.refl e⟩⟩

theorem SameList.trans {a b c : List (Elt K)} (h1 : SameList a b) (h2 : SameList b c) : SameList a c := by
  refine ⟨h2.1.trans h1.1, ?_⟩
  intro j e he
  obtain ⟨e1, h3, h4⟩ := h1.2 j e he
  obtain ⟨e2, h5, h6⟩ := h2.2 j e1 h3
  exact ⟨e2, h5, h4.trans h6⟩

theorem SameList.set {es : List (Elt K)} {i : Nat} {e e' : Elt K} (h : es[i]? = some e) (hs : SameElt e e') :
    SameList es (es.set i e') := by
  refine ⟨List.length_set, ?_⟩
  intro j f hf
  by_cases hij : i = j
  · subst hij
    rw [h] at hf; cases hf
    refine ⟨e', ?_, hs⟩
    rw [List.getElem?_set_self (List.getElem?_eq_some_iff.1 h).1]
  · exact ⟨f, by rw [List.getElem?_set_ne hij]; exact hf, SameElt.refl f⟩

theorem SameList.rev {es es' : List (Elt K)} (h : SameList es es') {j : Nat} {e' : Elt K} (he : es'[j]? = some e') :
    ∃ e, es[j]? = some e ∧ SameElt e e' := by
  have hj : j < es.length := by rw [← h.1]; exact (List.getElem?_eq_some_iff.1 he).1
  obtain ⟨e2, h1, h2⟩ := h.2 j es[j] (List.getElem?_eq_getElem hj)
  rw [he] at h1; cases h1
  exact ⟨es[j], List.getElem?_eq_getElem hj, h2⟩

theorem IsFirst.same {es es' : List (Elt K)} (h : SameList es es') {tag : String} {t : LType} {i k : Nat} {e : Elt K}
    (hf : IsFirst es tag t i k e) : ∃ e', IsFirst es' tag t i k e' ∧ SameElt e e' := by
  obtain ⟨e', h1, h2⟩ := h.2 i e hf.elt
  refine ⟨e', ?_, h2⟩
  obtain ⟨f, s, rfl⟩ := h2
  refine ⟨h1, hf.type, hf.line, hf.firstLine, ?_⟩
  intro j e'' hj he'' ht l hl
  obtain ⟨e0, h3, f', s', rfl⟩ := h.rev he''
  exact hf.firstElt j e0 hj h3 ht l hl

/-- A single emission line of nominal amplitude one, seen by some spectrum (the OII and CIII doublets of the standard
line catalogue, each line in its own element). -/
def Single (e : Elt K) : Prop :=
  e.lines.length = 1 ∧ e.nominal = [1] ∧ e.isEmission = true ∧ e.gOutsideLine = [false] ∧ e.gOutside = false ∧ e.outside = false

theorem single_set (e : Elt K) (hw : WF e) (hs : Single e) (x : K) (s : Option K) :
    ∃ e', setAmplitude e (some x) s = .ok e' ∧ SameElt e e' ∧ WF e' ∧ e'.fa[0]? = some (some x) ∧ e'.fastd[0]? = some s := by
  obtain ⟨h1, h2, h3, h4, h5, h6⟩ := hs
  obtain ⟨e', p1, p2, p3, p4⟩ := C67_set e x s hw h5
  have := (p4 0 1 (by rw [h2]; rfl)).2 (by rw [h4]; rfl)
  refine ⟨e', p1, p2, p3, ?_, ?_⟩
  · rw [this.1]; simp [lineAmp, h3]
  · rw [this.2]; cases s <;> simp

/-- C68, ratio range: with single lines of nominal amplitude one and a ratio of at least one, the amplitudes after a correction
are exactly in the ratio `R`, and applying the rule again changes nothing. -/
theorem C68_ratio_idempotent (t : LType) (tagA tagB : String) (R : K) (hR : 1 ≤ R) (es : List (Elt K)) (ia la ib lb : Nat)
    (eA eB : Elt K) (a b sa sb : K)
    (hA : IsFirst es tagA t ia la eA) (hB : IsFirst es tagB t ib lb eB) (hne : ia ≠ ib) (hwA : WF eA) (hwB : WF eB)
    (hsA : Single eA) (hsB : Single eB)
    (ha : eA.fa[la]? = some (some a)) (hb : eB.fa[lb]? = some (some b))
    (hsa : eA.fastd[la]? = some (some sa)) (hsb : eB.fastd[lb]? = some (some sb)) (hs : sa ≠ 0 ∨ sb ≠ 0) :
    ∃ es' lg, ratioRange t tagA tagB R es = .ok (es', lg) ∧ SameList es es' ∧
      ratioRange t tagA tagB R es' = .ok (es', false) ∧
      ∃ eA' eB' x y, es'[ia]? = some eA' ∧ es'[ib]? = some eB' ∧ eA'.fa = [some x] ∧ eB'.fa = [some y] ∧
        |x| ≤ R * |y| ∧ |y| ≤ R * |x| ∧
        (|b * R| < |a| → x = R * y) ∧ (|a * R| < |b| → |a| ≤ |b * R| → y = R * x) := by
  have hR0 : 0 < R := lt_of_lt_of_le zero_lt_one hR
  have hla : la = 0 := by
    have := (List.getElem?_eq_some_iff.1 ha).1
    rw [hwA.fa, hsA.1] at this; omega
  have hlb : lb = 0 := by
    have := (List.getElem?_eq_some_iff.1 hb).1
    rw [hwB.fa, hsB.1] at this; omega
  subst hla hlb
  have one : ∀ {l : List (Option K)} {x : Option K}, l.length = 1 → l[0]? = some x → l = [x] := by
    intro l x h1 h2
    obtain ⟨y, rfl⟩ := List.length_eq_one_iff.1 h1
    simpa using h2
  have habs : ∀ x y : K, |y * R| = R * |y| := by
    intro x y; rw [abs_mul, abs_of_pos hR0, mul_comm]
  have hle : ∀ x : K, |x / R| ≤ R * |x| := by
    intro x
    rw [abs_div, abs_of_pos hR0]
    calc |x| / R ≤ |x| := div_le_self (abs_nonneg _) hR
      _ ≤ R * |x| := le_mul_of_one_le_left (abs_nonneg _) hR
  have hxR : ∀ x : K, |x| = R * |x / R| := by
    intro x; rw [abs_div, abs_of_pos hR0, mul_div_cancel₀ _ hR0.ne']
  by_cases h1 : |b * R| < |a|
  · obtain ⟨eA', eB', x, hx, p1, p2, p3⟩ := C68_ratio_first_high t tagA tagB R hR0 es ia 0 ib 0 eA eB a b sa sb hA hB hne hwA hwB
      hsA.2.2.2.2.2 hsB.2.2.2.2.2 hsA.2.2.2.2.1 hsB.2.2.2.2.1 ha hb hsa hsb hs h1
    obtain ⟨eA2, q1, q2, q3, q4, q5⟩ := single_set eA hwA hsA x (some sa)
    rw [p1] at q1; cases q1
    obtain ⟨eB2, r1, r2, r3, r4, r5⟩ := single_set eB hwB hsB (x / R) (some sb)
    rw [p2] at r1; cases r1
    have hBs : (es.set ia eA')[ib]? = some eB := by rw [List.getElem?_set_ne hne]; exact hB.elt
    have hsame : SameList es ((es.set ia eA').set ib eB') := (SameList.set hA.elt q2).trans (SameList.set hBs r2)
    have gA : ((es.set ia eA').set ib eB')[ia]? = some eA' := by
      rw [List.getElem?_set_ne (Ne.symm hne), List.getElem?_set_self (List.getElem?_eq_some_iff.1 hA.elt).1]
    have gB : ((es.set ia eA').set ib eB')[ib]? = some eB' := by
      rw [List.getElem?_set_self (by rw [List.length_set]; exact (List.getElem?_eq_some_iff.1 hB.elt).1)]
    obtain ⟨eA3, fA, _⟩ := hA.same hsame
    obtain ⟨eB3, fB, _⟩ := hB.same hsame
    have : eA3 = eA' := by have := fA.elt.symm.trans gA; simpa using this
    subst this
    have : eB3 = eB' := by have := fB.elt.symm.trans gB; simpa using this
    subst this
    refine ⟨_, true, p3, hsame, ?_, eA3, eB3, x, x / R, gA, gB, ?_, ?_, ?_, ?_, ?_, ?_⟩
    · apply C68_ratio_in_range t tagA tagB R _ ia 0 ib 0 eA3 eB3 x (x / R) fA fB q3 r3 q4 r4
      · rw [habs x]; exact (hxR x).le
      · rw [habs x]; exact hle x
    · exact one (by rw [q3.fa]; obtain ⟨f, g, rfl⟩ := q2; exact hsA.1) q4
    · exact one (by rw [r3.fa]; obtain ⟨f, g, rfl⟩ := r2; exact hsB.1) r4
    · exact (hxR x).le
    · exact hle x
    · intro _; rw [mul_div_cancel₀ _ hR0.ne']
    · intro _ h; exact absurd h1 (not_lt.2 h)
  · have h1' := not_lt.1 h1
    by_cases h2 : |a * R| < |b|
    · obtain ⟨eA', eB', x, hx, p1, p2, p3⟩ := C68_ratio_second_high t tagA tagB R hR0 es ia 0 ib 0 eA eB a b sa sb hA hB hne hwA hwB
        hsA.2.2.2.2.2 hsB.2.2.2.2.2 hsA.2.2.2.2.1 hsB.2.2.2.2.1 ha hb hsa hsb hs h1' h2
      obtain ⟨eB2, q1, q2, q3, q4, q5⟩ := single_set eB hwB hsB x (some sb)
      rw [p1] at q1; cases q1
      obtain ⟨eA2, r1, r2, r3, r4, r5⟩ := single_set eA hwA hsA (x / R) (some sa)
      rw [p2] at r1; cases r1
      have hAs : (es.set ib eB')[ia]? = some eA := by rw [List.getElem?_set_ne (Ne.symm hne)]; exact hA.elt
      have hsame : SameList es ((es.set ib eB').set ia eA') := (SameList.set hB.elt q2).trans (SameList.set hAs r2)
      have gB : ((es.set ib eB').set ia eA')[ib]? = some eB' := by
        rw [List.getElem?_set_ne hne, List.getElem?_set_self (List.getElem?_eq_some_iff.1 hB.elt).1]
      have gA : ((es.set ib eB').set ia eA')[ia]? = some eA' := by
        rw [List.getElem?_set_self (by rw [List.length_set]; exact (List.getElem?_eq_some_iff.1 hA.elt).1)]
      obtain ⟨eA3, fA, _⟩ := hA.same hsame
      obtain ⟨eB3, fB, _⟩ := hB.same hsame
      have : eA3 = eA' := by have := fA.elt.symm.trans gA; simpa using this
      subst this
      have : eB3 = eB' := by have := fB.elt.symm.trans gB; simpa using this
      subst this
      refine ⟨_, true, p3, hsame, ?_, eA3, eB3, x / R, x, gA, gB, ?_, ?_, ?_, ?_, ?_, ?_⟩
      · apply C68_ratio_in_range t tagA tagB R _ ia 0 ib 0 eA3 eB3 (x / R) x fA fB r3 q3 r4 q4
        · rw [habs x]; exact hle x
        · rw [habs x]; exact (hxR x).le
      · exact one (by rw [r3.fa]; obtain ⟨f, g, rfl⟩ := r2; exact hsA.1) r4
      · exact one (by rw [q3.fa]; obtain ⟨f, g, rfl⟩ := q2; exact hsB.1) q4
      · exact hle x
      · exact (hxR x).le
      · intro h; exact absurd h h1
      · intro _ _; rw [mul_div_cancel₀ _ hR0.ne']
    · have h2' := not_lt.1 h2
      have := C68_ratio_in_range t tagA tagB R es ia 0 ib 0 eA eB a b hA hB hwA hwB ha hb h1' h2'
      refine ⟨es, false, this, SameList.refl es, this, eA, eB, a, b, hA.elt, hB.elt, ?_, ?_, ?_, ?_, ?_, ?_⟩
      · exact one (by rw [hwA.fa, hsA.1]) ha
      · exact one (by rw [hwB.fa, hsB.1]) hb
      · rw [← habs a]; exact h1'
      · rw [← habs a]; exact h2'
      · intro h; exact absurd h h1
      · intro h _; exact absurd h h2

/-! ## Limiting the selected lines of an element -/

/-- Amplitudes of an element as left by the fitting: either all NaN, or every line in the range of the current spectrum has a
number, and positive amplitudes are in the order of the nominal amplitudes. -/
def Fitted (e : Elt K) : Prop :=
  (∀ x ∈ e.fa, x = none) ∨
  ((∀ i : Nat, e.outsideLine[i]? = some false → ∃ x, e.fa[i]? = some (some x)) ∧
   (∀ (i j : Nat) ni nj xi xj, e.nominal[i]? = some ni → e.nominal[j]? = some nj → e.fa[i]? = some (some xi) →
     e.fa[j]? = some (some xj) → 0 < xj → nj ≤ ni → xj ≤ xi))

/-- Setting the amplitude of an element leaves it fitted. -/
theorem setAmplitude_fitted (e : Elt K) (A s : Option K) (hw : WF e) (hp : ∀ n ∈ e.nominal, 0 < n)
    (hsub : ∀ i : Nat, e.outsideLine[i]? = some false → e.gOutsideLine[i]? = some false) :
    ∃ e', setAmplitude e A s = .ok e' ∧ Fitted e' := by
  by_cases h : A = none ∨ e.gOutside = true
  · obtain ⟨e', h1, _, _, _, h2, _⟩ := C67_set_nan e A s h
    exact ⟨e', h1, Or.inl h2⟩
  · push Not at h
    obtain ⟨a, rfl⟩ := Option.ne_none_iff_exists'.1 h.1
    have hg : e.gOutside = false := by simpa using h.2
    obtain ⟨e', h1, ⟨f, g, rfl⟩, hw', hv⟩ := C67_set e a s hw hg
    refine ⟨_, h1, Or.inr ⟨?_, ?_⟩⟩
    · intro i hi
      have hlt : i < e.nominal.length := by
        rw [hw.nominal, ← hw.outL]; exact (List.getElem?_eq_some_iff.1 hi).1
      obtain ⟨n, hn, _⟩ := get_of_lt hlt
      exact ⟨_, ((hv i n hn).2 (hsub i hi)).1⟩
    · intro i j ni nj xi xj hi hj hxi hxj hpos hle
      have val : ∀ (k : Nat) n x, e.nominal[k]? = some n → f[k]? = some (some x) → x = lineAmp e a n := by
        intro k n x hn hx
        have hk : k < e.gOutsideLine.length := by
          rw [hw.gOutL, ← hw.nominal]; exact (List.getElem?_eq_some_iff.1 hn).1
        obtain ⟨o, ho, _⟩ := get_of_lt hk
        cases o
        · have := ((hv k n hn).2 ho).1
          rw [show f[k]? = _ from this] at hx; simpa using hx.symm
        · have := ((hv k n hn).1 ho).1
          rw [show f[k]? = _ from this] at hx; simp at hx
      have h2 := val i ni xi hi hxi
      have h3 := val j nj xj hj hxj
      subst h2 h3
      have hnj : 0 < nj := hp nj (List.mem_of_getElem? hj)
      have hcase : 0 < a * nj → a * nj ≤ a * ni := by
        intro h
        have ha : 0 < a := by
          by_contra hc
          have := mul_nonpos_of_nonpos_of_nonneg (not_lt.1 hc) hnj.le
          linarith
        exact mul_le_mul_of_nonneg_left hle ha.le
      unfold lineAmp at hpos ⊢
      by_cases hc : e.isEmission = false ∧ 0 < e.absLimit
      · rw [if_pos hc] at hpos ⊢
        rw [if_pos hc]
        exact min_le_min (hcase (lt_of_lt_of_le hpos (min_le_left _ _))) (le_refl _)
      · rw [if_neg hc] at hpos ⊢
        rw [if_neg hc]
        exact hcase hpos

/-- State of an element during the loop that limits the selected lines to `L`: unchanged with all selected lines up to `k`
at most `L`, or rescaled with all of them at most `max(0, L)`. -/
def LimInv (e : Elt K) (L : K) (sel : Nat → Prop) (k : Nat) (e' : Elt K) : Prop :=
  (e' = e ∧ ∀ (j : Nat) x, j < k → sel j → e.fa[j]? = some (some x) → x ≤ L) ∨
  (∃ c : K, 0 ≤ c ∧ e' = { e with fa := e.nominal.map fun n => some (n * c) } ∧
    (∀ (j : Nat) n, j < k → sel j → e.nominal[j]? = some n → n * c ≤ max 0 L) ∧
    (∃ (j : Nat) (x : K), sel j ∧ e.fa[j]? = some (some x) ∧ L < x))

theorem LimInv.wf {e : Elt K} {L : K} {sel : Nat → Prop} {k : Nat} {e' : Elt K} (hw : WF e) (h : LimInv e L sel k e') : WF e' := by
  rcases h with ⟨rfl, _⟩ | ⟨c, _, rfl, _⟩
  · exact hw
  · exact ⟨hw.nominal, by simp [hw.nominal], hw.fastd, hw.outL, hw.gOutL⟩

theorem LimInv.same {e : Elt K} {L : K} {sel : Nat → Prop} {k : Nat} {e' : Elt K} (h : LimInv e L sel k e') :
    ∃ f, e' = { e with fa := f } := by
  rcases h with ⟨rfl, _⟩ | ⟨c, _, rfl, _⟩
  · exact ⟨e'.fa, rfl⟩
  · exact ⟨_, rfl⟩

theorem LimInv.skip {e : Elt K} {L : K} {sel : Nat → Prop} {k : Nat} {e' : Elt K} (h : LimInv e L sel k e') (hk : ¬ sel k) :
    LimInv e L sel (k + 1) e' := by
  rcases h with ⟨rfl, h⟩ | ⟨c, hc, rfl, h, hex⟩
  · left
    refine ⟨rfl, fun j x hj hs => ?_⟩
    rcases Nat.lt_or_ge j k with h1 | h1
    · exact h j x h1 hs
    · have : j = k := by omega
      subst this; exact absurd hs hk
  · right
    refine ⟨c, hc, rfl, fun j n hj hs => ?_, hex⟩
    rcases Nat.lt_or_ge j k with h1 | h1
    · exact h j n h1 hs
    · have : j = k := by omega
      subst this; exact absurd hs hk

/-- One step of the loop. -/
theorem LimInv.step {e : Elt K} {L : K} {sel : Nat → Prop} {k : Nat} {e' : Elt K} (hw : WF e) (hp : ∀ n ∈ e.nominal, 0 < n)
    (hf : Fitted e) (hin : ∀ i : Nat, sel i → e.outsideLine[i]? = some false)
    (hk : k < e.lines.length) (hs : sel k) (h : LimInv e L sel k e') :
    ∃ e'' b, limit e' k (some L) = .ok (e'', b) ∧ LimInv e L sel (k + 1) e'' := by
  have hw' := h.wf hw
  obtain ⟨n, hn, _⟩ := get_of_lt (l := e.nominal) (i := k) (by rw [hw.nominal]; exact hk)
  have hnpos := hp n (List.mem_of_getElem? hn)
  rcases h with ⟨rfl, h⟩ | ⟨c, hc, rfl, h, hex⟩
  · obtain ⟨a, ha, _⟩ := get_of_lt (l := e'.fa) (i := k) (by rw [hw.fa]; exact hk)
    cases a with
    | none =>
      refine ⟨e', false, C67_limit_below e' k none (some L) ha (by simp), Or.inl ⟨rfl, ?_⟩⟩
      intro j x hj hsj hx
      rcases Nat.lt_or_ge j k with h1 | h1
      · exact h j x h1 hsj hx
      · have : j = k := by omega
        subst this; rw [ha] at hx; simp at hx
    | some x =>
      by_cases hx : L < x
      · obtain ⟨e'', h1, h2, _⟩ := C67_limit_above e' k x L n hw ha hn hnpos.ne' hx
        refine ⟨e'', true, h1, Or.inr ⟨max 0 L / n, div_nonneg (le_max_left _ _) hnpos.le, h2, ?_, k, x, hs, ha, hx⟩⟩
        intro j m hj hsj hm
        have hmpos := hp m (List.mem_of_getElem? hm)
        rcases Nat.lt_or_ge j k with h3 | h3
        · rcases le_or_gt L 0 with hL | hL
          · rw [max_eq_left hL]; simp
          · rw [max_eq_right hL.le]
            have hmn : m ≤ n := by
              by_contra hcon
              push Not at hcon
              rcases hf with hf | ⟨hf1, hf2⟩
              · have := hf _ (List.mem_of_getElem? ha); simp at this
              · obtain ⟨y, hy⟩ := hf1 j (hin j hsj)
                have h4 := hf2 j k m n y x hm hn hy ha (lt_trans hL hx) hcon.le
                have h5 := h j y h3 hsj hy
                linarith
            rw [mul_div_assoc', div_le_iff₀ hnpos]
            rw [mul_comm]
            exact mul_le_mul_of_nonneg_left hmn hL.le
        · have : j = k := by omega
          subst this
          rw [hn] at hm; cases hm
          rw [mul_div_cancel₀ _ hnpos.ne']
      · refine ⟨e', false, C67_limit_below e' k (some x) (some L) ha ?_, Or.inl ⟨rfl, ?_⟩⟩
        · intro y L' h1 h2; cases h1; cases h2; exact not_lt.1 hx
        · intro j y hj hsj hy
          rcases Nat.lt_or_ge j k with h1 | h1
          · exact h j y h1 hsj hy
          · have : j = k := by omega
            subst this; rw [ha] at hy; cases hy; exact not_lt.1 hx
  · have ha : ({ e with fa := e.nominal.map fun n => some (n * c) } : Elt K).fa[k]? = some (some (n * c)) := by
      simp [hn]
    by_cases hx : L < n * c
    · obtain ⟨e'', h1, h2, _⟩ := C67_limit_above _ k (n * c) L n hw' ha hn hnpos.ne' hx
      refine ⟨e'', true, h1, Or.inr ⟨max 0 L / n, div_nonneg (le_max_left _ _) hnpos.le, h2, ?_, hex⟩⟩
      have hcc : max 0 L / n ≤ c := by
        rw [div_le_iff₀ hnpos]
        exact max_le (mul_nonneg hc hnpos.le) (by rw [mul_comm]; exact hx.le)
      intro j m hj hsj hm
      have hmpos := hp m (List.mem_of_getElem? hm)
      rcases Nat.lt_or_ge j k with h3 | h3
      · exact le_trans (mul_le_mul_of_nonneg_left hcc hmpos.le) (h j m h3 hsj hm)
      · have : j = k := by omega
        subst this
        rw [hn] at hm; cases hm
        rw [mul_div_cancel₀ _ hnpos.ne']
    · refine ⟨_, false, C67_limit_below _ k _ (some L) ha ?_, Or.inr ⟨c, hc, rfl, ?_, hex⟩⟩
      · intro y L' h1 h2; cases h1; cases h2; exact not_lt.1 hx
      · intro j m hj hsj hm
        rcases Nat.lt_or_ge j k with h1 | h1
        · exact h j m h1 hsj hm
        · have : j = k := by omega
          subst this; rw [hn] at hm; cases hm
          exact le_trans (not_lt.1 hx) (le_max_right _ _)

/-- Specification of the limitation of the selected lines of an element to `L`: the element is unchanged when no selected
line is above `L`; otherwise all its lines are rescaled by their nominal amplitudes; in both cases no selected line with a
number is above `max(0, L)`. Errors, names, ranges and nominal amplitudes are unchanged. -/
def Limited (e : Elt K) (L : K) (sel : Nat → Prop) (e' : Elt K) : Prop :=
  ((∀ (j : Nat) x, sel j → e.fa[j]? = some (some x) → x ≤ L) → e' = e) ∧
  (∀ (j : Nat) x, sel j → e'.fa[j]? = some (some x) → x ≤ max 0 L) ∧
  ((∃ (j : Nat) (x : K), sel j ∧ e.fa[j]? = some (some x) ∧ L < x) →
    ∃ c : K, 0 ≤ c ∧ e' = { e with fa := e.nominal.map fun n => some (n * c) })

theorem LimInv.limited {e : Elt K} {L : K} {sel : Nat → Prop} {e' : Elt K} (hw : WF e)
    (h : LimInv e L sel e.lines.length e') : Limited e L sel e' := by
  have hlt : ∀ (j : Nat) x, e.fa[j]? = some (some x) → j < e.lines.length := by
    intro j x hx; rw [← hw.fa]; exact (List.getElem?_eq_some_iff.1 hx).1
  rcases h with ⟨rfl, h⟩ | ⟨c, hc, rfl, h, j0, x0, hs0, hx0, hL0⟩
  · refine ⟨fun _ => rfl, ?_, ?_⟩
    · intro j x hs hx
      exact le_trans (h j x (hlt j x hx) hs hx) (le_max_right _ _)
    · rintro ⟨j, x, hs, hx, hL⟩
      exact absurd hL (not_lt.2 (h j x (hlt j x hx) hs hx))
  · refine ⟨?_, ?_, fun _ => ⟨c, hc, rfl⟩⟩
    · intro hall
      exact absurd hL0 (not_lt.2 (hall j0 x0 hs0 hx0))
    · intro j x hs hx
      simp only [List.getElem?_map, Option.map_eq_some_iff, Option.some.injEq] at hx
      obtain ⟨n, hn, rfl⟩ := hx
      exact h j n (by rw [← hw.nominal]; exact (List.getElem?_eq_some_iff.1 hn).1) hs hn

/-- Lines concerned by the strong/weak rule: weak, in the range of the current spectrum. -/
def SelWeak (e : Elt K) (i : Nat) : Prop :=
  e.outsideLine[i]? = some false ∧ ∃ l, e.lines[i]? = some l ∧ l.force = .weak

/-- Hypotheses on an element: sizes, positive nominal amplitudes, amplitudes as left by the fitting. -/
structure Good (e : Elt K) : Prop where
  wf : WF e
  pos : ∀ n ∈ e.nominal, 0 < n
  fitted : Fitted e

theorem limitWeak_spec (e : Elt K) (L : K) (hg : Good e) :
    ∃ e' b, limitWeak e (some L) = .ok (e', b) ∧ Limited e L (SelWeak e) e' := by
  unfold limitWeak
  obtain ⟨s', h1, h2⟩ := Res.foldN_inv (fun k (s : Elt K × Bool) => LimInv e L (SelWeak e) k s.1) e.lines.length 0 (e, false)
    (Or.inl ⟨rfl, by intro j _ hj; omega⟩)
    (f := fun i s =>
      Res.at_ s.1.outsideLine i >>= fun o =>
      if o then .ok s
      else Res.at_ s.1.lines i >>= fun l =>
        if l.force = .weak then limit s.1 i (some L) >>= fun r => .ok (r.1, s.2 || r.2) else .ok s)
    (by
      rintro i ⟨e1, b1⟩ _ hi hinv
      rw [Nat.zero_add] at hi
      obtain ⟨f, hf⟩ := hinv.same
      simp only at hf
      have ho : e1.outsideLine = e.outsideLine := by rw [hf]
      have hl : e1.lines = e.lines := by rw [hf]
      obtain ⟨o, ho1, ho2⟩ := get_of_lt (l := e.outsideLine) (i := i) (by rw [hg.wf.outL]; exact hi)
      obtain ⟨l, hl1, hl2⟩ := get_of_lt (l := e.lines) (i := i) hi
      simp only [ho, hl, ho2, hl2, Res.bind_ok]
      cases o with
      | true =>
        refine ⟨(e1, b1), rfl, hinv.skip ?_⟩
        rintro ⟨h, _⟩; rw [ho1] at h; simp at h
      | false =>
        simp only [Bool.false_eq_true, if_false]
        by_cases hwk : l.force = .weak
        · rw [if_pos hwk]
          obtain ⟨e2, b2, h3, h4⟩ := hinv.step hg.wf hg.pos hg.fitted (fun i h => h.1) hi ⟨ho1, l, hl1, hwk⟩
          exact ⟨(e2, b1 || b2), by simp only at h3 ⊢; rw [h3, Res.bind_ok], h4⟩
        · rw [if_neg hwk]
          refine ⟨(e1, b1), rfl, hinv.skip ?_⟩
          rintro ⟨_, l', hl', hw'⟩
          rw [hl1] at hl'; cases hl'; exact hwk hw')
  rw [Nat.zero_add] at h2
  exact ⟨s'.1, s'.2, h1, h2.limited hg.wf⟩

/-- A loop over the elements that replaces each of them. -/
theorem fold_set {g : Elt K → Res (Elt K × Bool)} {Q : Elt K → Elt K → Prop} (es : List (Elt K))
    (hg : ∀ e ∈ es, ∃ e' b, g e = .ok (e', b) ∧ Q e e') :
    ∃ es' lg, Res.foldN (fun k (s : List (Elt K) × Bool) => Res.at_ s.1 k >>= fun e => g e >>= fun r =>
        .ok (s.1.set k r.1, s.2 || r.2)) 0 es.length (es, false) = .ok (es', lg) ∧
      es'.length = es.length ∧ ∀ (j : Nat) e, es[j]? = some e → ∃ e', es'[j]? = some e' ∧ Q e e' := by
  obtain ⟨s', h1, h2, h3, h4⟩ := Res.foldN_inv (fun k (s : List (Elt K) × Bool) => s.1.length = es.length ∧
      (∀ (j : Nat) e, j < k → es[j]? = some e → ∃ e', s.1[j]? = some e' ∧ Q e e') ∧ (∀ j : Nat, k ≤ j → s.1[j]? = es[j]?))
    es.length 0 (es, false) ⟨rfl, by intro j _ hj; omega, fun _ _ => rfl⟩
    (f := fun k (s : List (Elt K) × Bool) => Res.at_ s.1 k >>= fun e => g e >>= fun r => .ok (s.1.set k r.1, s.2 || r.2))
    (by
      rintro k ⟨l, b⟩ _ hk ⟨h1, h2, h3⟩
      rw [Nat.zero_add] at hk
      have hk' : l[k]? = some es[k] := by
        have := h3 k (le_refl _); simp only at this; rw [this]; exact List.getElem?_eq_getElem hk
      obtain ⟨e', b', h4, h5⟩ := hg es[k] (List.getElem_mem hk)
      refine ⟨(l.set k e', b || b'), by simp only [(Res.at_eq_ok).2 hk', Res.bind_ok, h4], ?_, ?_, ?_⟩
      · simp only [List.length_set]; exact h1
      · intro j e hj he
        simp only
        by_cases hjk : k = j
        · subst hjk
          rw [List.getElem?_eq_getElem hk] at he; cases he
          exact ⟨e', by rw [List.getElem?_set_self (by simp only at h1; omega)], h5⟩
        · rw [List.getElem?_set_ne hjk]
          exact h2 j e (by omega) he
      · intro j hj
        simp only
        rw [List.getElem?_set_ne (by omega)]
        exact h3 j (by omega))
  rw [Nat.zero_add] at h3
  refine ⟨s'.1, s'.2, h1, h2, ?_⟩
  intro j e he
  exact h3 j e (List.getElem?_eq_some_iff.1 he).1 he

/-- Lines concerned by the search of the lowest strong line: strong, in range, of an element of the type. -/
def Strong (t : LType) (es : List (Elt K)) (i j : Nat) (x : K) : Prop :=
  ∃ e l, es[i]? = some e ∧ e.type = t ∧ e.lines[j]? = some l ∧ l.force = .strong ∧ e.outsideLine[j]? = some false ∧
    e.fa[j]? = some (some x)

/-- Invariant of the search: best among the lines before `(i, k)` in reading order. -/
def LowInv (t : LType) (es : List (Elt K)) (i k : Nat) (s : Low K) : Prop :=
  (s = none → ∀ i' j x, Strong t es i' j x → ¬ (i' < i ∨ (i' = i ∧ j < k))) ∧
  (∀ m i0 j0, s = some (m, i0, j0) → Strong t es i0 j0 m ∧
    ∀ i' j x, Strong t es i' j x → (i' < i ∨ (i' = i ∧ j < k)) → m ≤ x)

theorem lowLines_spec (t : LType) (es : List (Elt K)) (i : Nat) (e : Elt K) (he : es[i]? = some e) (ht : e.type = t) (hw : WF e)
    (s : Low K) (hs : LowInv t es i 0 s) : ∃ s', lowLines e i s = .ok s' ∧ LowInv t es i e.lines.length s' := by
  unfold lowLines
  obtain ⟨s', h1, h2⟩ := Res.foldN_inv (fun k (s : Low K) => LowInv t es i k s) e.lines.length 0 s hs
    (f := fun k s =>
      Res.at_ e.lines k >>= fun l =>
      Res.at_ e.outsideLine k >>= fun o =>
      if o then .ok s
      else if l.force = .strong then
        Res.at_ e.fa k >>= fun a =>
        match a, s with
        | some x, none => .ok (some (x, i, k))
        | some x, some (m, ie0, i0) => if x < m then .ok (some (x, i, k)) else .ok s
        | none, _ => .ok s
      else .ok s)
    (by
      intro k s _ hk hinv
      rw [Nat.zero_add] at hk
      obtain ⟨l, hl1, hl2⟩ := get_of_lt (l := e.lines) (i := k) hk
      obtain ⟨o, ho1, ho2⟩ := get_of_lt (l := e.outsideLine) (i := k) (by rw [hw.outL]; exact hk)
      obtain ⟨a, ha1, ha2⟩ := get_of_lt (l := e.fa) (i := k) (by rw [hw.fa]; exact hk)
      simp only [hl2, ho2, ha2, Res.bind_ok]
      have skip : (∀ x, ¬ Strong t es i k x) → LowInv t es i (k + 1) s := by
        intro hn
        have conv : ∀ i' j x, Strong t es i' j x → (i' < i ∨ (i' = i ∧ j < k + 1)) → (i' < i ∨ (i' = i ∧ j < k)) := by
          intro i' j x hst hc
          rcases hc with hc | ⟨rfl, hc⟩
          · exact Or.inl hc
          · rcases Nat.lt_or_ge j k with h | h
            · exact Or.inr ⟨rfl, h⟩
            · have : j = k := by omega
              subst this; exact absurd hst (hn x)
        exact ⟨fun h i' j x hst hc => hinv.1 h i' j x hst (conv i' j x hst hc),
          fun m i0 j0 h => ⟨(hinv.2 m i0 j0 h).1, fun i' j x hst hc => (hinv.2 m i0 j0 h).2 i' j x hst (conv i' j x hst hc)⟩⟩
      cases o with
      | true =>
        refine ⟨s, rfl, skip ?_⟩
        rintro x ⟨e', l', h1, _, _, _, h5, _⟩
        rw [he] at h1; cases h1; rw [ho1] at h5; simp at h5
      | false =>
        simp only [Bool.false_eq_true, if_false]
        by_cases hst : l.force = .strong
        · rw [if_pos hst]
          cases a with
          | none =>
            have : ∀ x, ¬ Strong t es i k x := by
              rintro x ⟨e', l', h1, _, _, _, _, h6⟩
              rw [he] at h1; cases h1; rw [ha1] at h6; simp at h6
            exact ⟨s, by cases s <;> rfl, skip this⟩
          | some x =>
            have hS : Strong t es i k x := ⟨e, l, he, ht, hl1, hst, ho1, ha1⟩
            have hval : ∀ y, Strong t es i k y → y = x := by
              rintro y ⟨e', l', h1, _, _, _, _, h6⟩
              rw [he] at h1; cases h1; rw [ha1] at h6; simpa using h6.symm
            cases s with
            | none =>
              refine ⟨some (x, i, k), rfl, by simp, ?_⟩
              intro m i0 j0 h; cases h
              refine ⟨hS, fun i' j y hy hc => ?_⟩
              rcases hc with hc | ⟨rfl, hc⟩
              · exact absurd (Or.inl hc) (hinv.1 rfl i' j y hy)
              · rcases Nat.lt_or_ge j k with h | h
                · exact absurd (Or.inr ⟨rfl, h⟩) (hinv.1 rfl i' j y hy)
                · have : j = k := by omega
                  subst this; exact (hval y hy).ge
            | some p =>
              obtain ⟨m, i0, j0⟩ := p
              have hm := hinv.2 m i0 j0 rfl
              simp only
              by_cases hlt : x < m
              · refine ⟨some (x, i, k), by rw [if_pos hlt], by simp, ?_⟩
                intro m' i1 j1 h; cases h
                refine ⟨hS, fun i' j y hy hc => ?_⟩
                rcases hc with hc | ⟨rfl, hc⟩
                · exact hlt.le.trans (hm.2 i' j y hy (Or.inl hc))
                · rcases Nat.lt_or_ge j k with h | h
                  · exact hlt.le.trans (hm.2 i' j y hy (Or.inr ⟨rfl, h⟩))
                  · have : j = k := by omega
                    subst this; exact (hval y hy).ge
              · refine ⟨some (m, i0, j0), by rw [if_neg hlt], by simp, ?_⟩
                intro m' i1 j1 h; cases h
                refine ⟨hm.1, fun i' j y hy hc => ?_⟩
                rcases hc with hc | ⟨rfl, hc⟩
                · exact hm.2 i' j y hy (Or.inl hc)
                · rcases Nat.lt_or_ge j k with h | h
                  · exact hm.2 i' j y hy (Or.inr ⟨rfl, h⟩)
                  · have : j = k := by omega
                    subst this; rw [hval y hy]; exact not_lt.1 hlt
        · rw [if_neg hst]
          refine ⟨s, rfl, skip ?_⟩
          rintro x ⟨e', l', h1, _, h3, h4, _⟩
          rw [he] at h1; cases h1; rw [hl1] at h3; cases h3; exact hst h4)
  rw [Nat.zero_add] at h2
  exact ⟨s', h1, h2⟩

theorem lowestStrong_spec (t : LType) (es : List (Elt K)) (hw : ∀ e ∈ es, WF e) :
    ∃ s, lowestStrong t es = .ok s ∧ (s = none → ∀ i j x, ¬ Strong t es i j x) ∧
      (∀ m i0 j0, s = some (m, i0, j0) → Strong t es i0 j0 m ∧ ∀ i j x, Strong t es i j x → m ≤ x) := by
  unfold lowestStrong
  obtain ⟨s', h1, h2⟩ := Res.foldN_inv (fun k (s : Low K) => LowInv t es k 0 s) es.length 0 none
    ⟨by intro _ i' j x _ h; omega, by intro _ _ _ h; cases h⟩
    (f := fun ie s => Res.at_ es ie >>= fun e => if e.type = t then lowLines e ie s else .ok s)
    (by
      intro k s _ hk hinv
      rw [Nat.zero_add] at hk
      have he : es[k]? = some es[k] := List.getElem?_eq_getElem hk
      simp only [Res.at_of_lt hk, Res.bind_ok]
      by_cases ht : es[k].type = t
      · rw [if_pos ht]
        obtain ⟨s', h1, h2⟩ := lowLines_spec t es k es[k] he ht (hw _ (List.getElem_mem hk)) s hinv
        refine ⟨s', h1, ?_⟩
        have conv : ∀ i' j x, Strong t es i' j x → (i' < k + 1 ∨ (i' = k + 1 ∧ j < 0)) →
            (i' < k ∨ (i' = k ∧ j < es[k].lines.length)) := by
          intro i' j x hst hc
          rcases hc with hc | ⟨_, hc⟩
          · rcases Nat.lt_or_ge i' k with h | h
            · exact Or.inl h
            · have : i' = k := by omega
              subst this
              obtain ⟨e', l', h1, _, h3, _⟩ := hst
              rw [he] at h1; cases h1
              exact Or.inr ⟨rfl, (List.getElem?_eq_some_iff.1 h3).1⟩
          · omega
        exact ⟨fun h i' j x hst hc => h2.1 h i' j x hst (conv i' j x hst hc),
          fun m i0 j0 h => ⟨(h2.2 m i0 j0 h).1, fun i' j x hst hc => (h2.2 m i0 j0 h).2 i' j x hst (conv i' j x hst hc)⟩⟩
      · rw [if_neg ht]
        refine ⟨s, rfl, ?_⟩
        have conv : ∀ i' j x, Strong t es i' j x → (i' < k + 1 ∨ (i' = k + 1 ∧ j < 0)) → (i' < k ∨ (i' = k ∧ j < 0)) := by
          intro i' j x hst hc
          rcases hc with hc | ⟨_, hc⟩
          · rcases Nat.lt_or_ge i' k with h | h
            · exact Or.inl h
            · have : i' = k := by omega
              subst this
              obtain ⟨e', l', h1, h2, _⟩ := hst
              rw [he] at h1; cases h1
              exact absurd h2 ht
          · omega
        exact ⟨fun h i' j x hst hc => hinv.1 h i' j x hst (conv i' j x hst hc),
          fun m i0 j0 h => ⟨(hinv.2 m i0 j0 h).1, fun i' j x hst hc => (hinv.2 m i0 j0 h).2 i' j x hst (conv i' j x hst hc)⟩⟩)
  rw [Nat.zero_add] at h2
  have hlt : ∀ i j x, Strong t es i j x → (i < es.length ∨ (i = es.length ∧ j < 0)) := by
    rintro i j x ⟨e, l, h, _⟩
    exact Or.inl (List.getElem?_eq_some_iff.1 h).1
  exact ⟨s', h1, fun h i j x hst => h2.1 h i j x hst (hlt i j x hst),
    fun m i0 j0 h => ⟨(h2.2 m i0 j0 h).1, fun i j x hst => (h2.2 m i0 j0 h).2 i j x hst (hlt i j x hst)⟩⟩

/-- C69: with no strong line in range with an amplitude, the strong/weak rule changes nothing. -/
theorem C69_no_strong (t : LType) (es : List (Elt K)) (hw : ∀ e ∈ es, WF e) (h : ∀ i j x, ¬ Strong t es i j x) :
    strongWeak t es = .ok (es, false) := by
  obtain ⟨s, h1, h2, h3⟩ := lowestStrong_spec t es hw
  unfold strongWeak
  rw [h1, Res.bind_ok]
  cases s with
  | none => rfl
  | some p =>
    obtain ⟨m, i0, j0⟩ := p
    exact absurd (h3 m i0 j0 rfl).1 (h i0 j0 m)

/-- C69: otherwise let `m` be the lowest amplitude of a strong line in range and `s` the error of such a line: in every element of
the type, the weak lines in range end up at most at `max(0, m + s)`, an element whose weak lines are all at most `m + s` is
unchanged, and the others are rescaled as a whole; elements of other types are unchanged. -/
theorem C69_strong_weak (t : LType) (es : List (Elt K)) (hg : ∀ e ∈ es, Good e)
    (hstd : ∀ i j x e, Strong t es i j x → es[i]? = some e → ∃ s, e.fastd[j]? = some (some s))
    (hex : ∃ i j x, Strong t es i j x) :
    ∃ m i0 j0 e0 s, Strong t es i0 j0 m ∧ (∀ i j x, Strong t es i j x → m ≤ x) ∧
      es[i0]? = some e0 ∧ e0.fastd[j0]? = some (some s) ∧
      ∃ es' lg, strongWeak t es = .ok (es', lg) ∧ es'.length = es.length ∧
        ∀ (j : Nat) e, es[j]? = some e → ∃ e', es'[j]? = some e' ∧
          (e.type ≠ t → e' = e) ∧ (e.type = t → Limited e (m + s) (SelWeak e) e') := by
  obtain ⟨st, h1, h2, h3⟩ := lowestStrong_spec t es (fun e he => (hg e he).wf)
  cases st with
  | none =>
    obtain ⟨i, j, x, hx⟩ := hex
    exact absurd hx (h2 rfl i j x)
  | some p =>
    obtain ⟨m, i0, j0⟩ := p
    obtain ⟨hS, hmin⟩ := h3 m i0 j0 rfl
    obtain ⟨e0, l0, he0, ht0, hl0, hf0, ho0, ha0⟩ := hS
    obtain ⟨s, hs⟩ := hstd i0 j0 m e0 ⟨e0, l0, he0, ht0, hl0, hf0, ho0, ha0⟩ he0
    refine ⟨m, i0, j0, e0, s, ⟨e0, l0, he0, ht0, hl0, hf0, ho0, ha0⟩, hmin, he0, hs, ?_⟩
    obtain ⟨es', lg, h4, h5, h6⟩ := fold_set (g := fun e => if e.type = t then limitWeak e (some (m + s)) else .ok (e, false))
      (Q := fun e e' => (e.type ≠ t → e' = e) ∧ (e.type = t → Limited e (m + s) (SelWeak e) e')) es
      (by
        intro e he
        by_cases ht : e.type = t
        · obtain ⟨e', b, h7, h8⟩ := limitWeak_spec e (m + s) (hg e he)
          exact ⟨e', b, by rw [if_pos ht, h7], fun h => absurd ht h, fun _ => h8⟩
        · exact ⟨e, false, by rw [if_neg ht], fun _ => rfl, fun h => absurd h ht⟩)
    have hloop : ∀ (s1 : List (Elt K) × Bool) (k : Nat),
        (Res.at_ s1.1 k >>= fun e => (if e.type = t then limitWeak e (some (m + s)) else .ok (e, false)) >>= fun r =>
          .ok (s1.1.set k r.1, s1.2 || r.2)) =
        (Res.at_ s1.1 k >>= fun e =>
          if e.type = t then limitWeak e (vAdd (some m) (some s)) >>= fun r => .ok (s1.1.set k r.1, s1.2 || r.2) else .ok s1) := by
      intro s1 k
      cases hk : Res.at_ s1.1 k with
      | throw e => rfl
      | ub => rfl
      | ok e =>
        simp only [Res.bind_ok]
        by_cases ht : e.type = t
        · rw [if_pos ht, if_pos ht]; rfl
        · rw [if_neg ht, if_neg ht]
          simp only [Res.bind_ok, Bool.or_false]
          have := Res.at_eq_ok.1 hk
          obtain ⟨h7, h8⟩ := List.getElem?_eq_some_iff.1 this
          rw [← h8, List.set_getElem_self h7]
    refine ⟨es', lg, ?_, h5, h6⟩
    unfold strongWeak
    rw [h1, Res.bind_ok]
    simp only [(Res.at_eq_ok).2 he0, (Res.at_eq_ok).2 hs, (Res.at_eq_ok).2 ha0, Res.bind_ok]
    rw [if_neg (by simp), if_neg (by simp), ← h4]
    congr 1
    funext k s1
    exact (hloop s1 k).symm

/-- C69: an undefined error of the lowest strong line is an error. -/
theorem C69_nan_error (t : LType) (es : List (Elt K)) (hw : ∀ e ∈ es, WF e) (hex : ∃ i j x, Strong t es i j x)
    (hstd : ∀ i j x e, Strong t es i j x → es[i]? = some e → e.fastd[j]? = some none) :
    strongWeak t es = .throw .INTERNAL_ERROR := by
  obtain ⟨st, h1, h2, h3⟩ := lowestStrong_spec t es hw
  cases st with
  | none =>
    obtain ⟨i, j, x, hx⟩ := hex
    exact absurd hx (h2 rfl i j x)
  | some p =>
    obtain ⟨m, i0, j0⟩ := p
    obtain ⟨hS, hmin⟩ := h3 m i0 j0 rfl
    obtain ⟨e0, l0, he0, ht0, hl0, hf0, ho0, ha0⟩ := id hS
    have hs := hstd i0 j0 m e0 hS he0
    unfold strongWeak
    rw [h1, Res.bind_ok]
    simp only [(Res.at_eq_ok).2 he0, (Res.at_eq_ok).2 hs, (Res.at_eq_ok).2 ha0, Res.bind_ok, if_true]

end Rules
end Amazed
