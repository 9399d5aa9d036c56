import Verif.Props.LineDetectFluxes

set_option linter.unusedSectionVars false
set_option linter.unusedVariables false

/-! # Line detection: the peaks that become lines (C120) -/

namespace Amazed
namespace LineDetect
open Amp (LType Force)

variable {K : Type} [Field K] [LinearOrder K] [IsStrictOrderedRing K]

/-! ## Specification -/

/-- `q` is the ratio of the range `[rb, re]`: the height of its first highest sample above the median around it, over the noise
around it. -/
def IsRatio (s : Spc K) (win : K) (rb re : Nat) (q : Quo K) : Prop :=
  ∃ (k : Nat) (v x med d : K), Top s.flux [] rb re k v ∧ s.axis[k]? = some x ∧
    Flux.IsMedian (pick s.flux (around s.axis [] rb re win x)) med ∧
    Peaks.IsMiddle ((pick s.flux (around s.axis [] rb re win x)).map fun y => |y - med|) d ∧
    q = quo (v - med) (noiseOf s.err (around s.axis [] rb re win x) (around s.axis [] rb re win x) d)

/-- The fitted height `a` is not between 65 and 135 % of the measured maximum `v`. -/
def Far (a v : K) : Prop := (v = 0 ∧ a ≠ 0) ∨ (v ≠ 0 ∧ (a / v ≤ 65 / 100 ∨ 135 / 100 ≤ a / v))

/-- The reasons to refuse a peak `r` of Gaussian fit `g`, before its ratio. -/
inductive Refused (p : Prm K) (s : Spc K) (r : Nat × Nat) (g : Fit K) : Status → Prop
  | amp : g.amp < 0 → Refused p s r g .ampNegative
  | width : 0 ≤ g.amp → g.width < 0 → Refused p s r g .widthNegative
  | narrow : 0 ≤ g.amp → 0 ≤ g.width → 235 / 100 * g.width < p.minsize → Refused p s r g .tooNarrow
  | wide : 0 ≤ g.amp → 0 ≤ g.width → p.maxsize < 235 / 100 * g.width → Refused p s r g .tooWide
  | ampFar (k : Nat) (v : K) : 0 ≤ g.amp → 0 ≤ g.width → p.minsize ≤ 235 / 100 * g.width → 235 / 100 * g.width ≤ p.maxsize →
      p.noCheck = false → Top s.flux [] r.1 r.2 k v → Far (g.amp + g.cont) v → Refused p s r g .ampFar
  | posFar (k : Nat) (v x : K) : 0 ≤ g.amp → 0 ≤ g.width → p.minsize ≤ 235 / 100 * g.width → 235 / 100 * g.width ≤ p.maxsize →
      p.noCheck = false → Top s.flux [] r.1 r.2 k v → s.axis[k]? = some x → 6 < |g.pos - x| → Refused p s r g .posFar

/-- The peak `j` passes every check before its ratio, which is `q`. -/
def Passes (p : Prm K) (s : Spc K) (fit : Int × Int → Option (Fit K)) (peaks : List (Nat × Nat)) (enl : List (Int × Int))
    (j : Nat) (g : Fit K) (q : Quo K) : Prop :=
  ∃ r e, peaks[j]? = some r ∧ enl[j]? = some e ∧ fit e = some g ∧ (∀ b, ¬ Refused p s r g b) ∧ IsRatio s p.win r.1 r.2 q

/-- What is reported of the peak `j`. -/
inductive Says (p : Prm K) (s : Spc K) (fit : Int × Int → Option (Fit K)) (peaks : List (Nat × Nat)) (enl : List (Int × Int))
    (j : Nat) : Status → Prop
  | fitFailed (e : Int × Int) : j < peaks.length → enl[j]? = some e → fit e = none → Says p s fit peaks enl j .fitFailed
  | refused (r : Nat × Nat) (e : Int × Int) (g : Fit K) (b : Status) : peaks[j]? = some r → enl[j]? = some e → fit e = some g →
      Refused p s r g b → Says p s fit peaks enl j b
  | belowCut (g : Fit K) (q : Quo K) : Passes p s fit peaks enl j g q → q.lt p.cut = true → Says p s fit peaks enl j .belowCut
  | detected (g : Fit K) (q : Quo K) : Passes p s fit peaks enl j g q → q.lt p.cut = false → Says p s fit peaks enl j .detected

/-- The line of the detected peak `j`. -/
def IsLine (p : Prm K) (s : Spc K) (fit : Int × Int → Option (Fit K)) (peaks : List (Nat × Nat)) (enl : List (Int × Int))
    (j : Nat) (d : Det K) : Prop :=
  ∃ g, Passes p s fit peaks enl j g d.cut ∧ d.cut.lt p.cut = false ∧
    d.name = "detected_peak_" ++ toString j ∧ d.type = p.type ∧ d.pos = g.pos ∧ d.amp = g.amp ∧ d.width = g.width ∧
    d.posErr = g.posErr ∧ d.widthErr = g.widthErr ∧ d.ampErr = g.ampErr ∧
    d.force = (if d.cut.gt (p.cut * p.strongcut) then Force.strong else Force.weak)

/-- The entry of the peak `j`, to test again. -/
def IsRetest (p : Prm K) (s : Spc K) (fit : Int × Int → Option (Fit K)) (peaks : List (Nat × Nat)) (enl : List (Int × Int))
    (j : Nat) (x : (Nat × Nat) × (K × K × K)) : Prop :=
  ∃ g q, Passes p s fit peaks enl j g q ∧ q.lt p.cut = true ∧ peaks[j]? = some x.1 ∧ x.2 = (g.pos, g.amp, g.width)

/-! ## Uniqueness of the ratio -/

theorem top_unique {flux mask : List K} {rb re k k' : Nat} {v v' : K} (h : Top flux mask rb re k v) (h' : Top flux mask rb re k' v') :
    k = k' ∧ v = v' := by
  obtain ⟨a1, a2, a3, a4, a5, a6⟩ := h
  obtain ⟨b1, b2, b3, b4, b5, b6⟩ := h'
  have hk : k = k' := by
    rcases Nat.lt_trichotomy k k' with h | h | h
    · exact absurd (lt_of_lt_of_le (b6 k v a1 h a3 a4) (a5 k' v' b1 b2 b3 b4)) (lt_irrefl _)
    · exact h
    · exact absurd (lt_of_lt_of_le (a6 k' v' b1 h b3 b4) (b5 k v a1 a2 a3 a4)) (lt_irrefl _)
  subst hk
  rw [a4] at b4
  exact ⟨rfl, Option.some.inj b4⟩

theorem median_unique {w : List K} {m m' : K} (h : Flux.IsMedian w m) (h' : Flux.IsMedian w m') : m = m' := by
  obtain ⟨s, hs, a, b, h1, h2, h3⟩ := h
  obtain ⟨s', hs', a', b', h1', h2', h3'⟩ := h'
  rw [hs.eq] at h1 h2
  rw [hs'.eq, h1] at h1'
  rw [hs'.eq, h2] at h2'
  cases h1'; cases h2'
  rw [h3, h3']

theorem middle_unique {w : List K} {m m' : K} (h : Peaks.IsMiddle w m) (h' : Peaks.IsMiddle w m') : m = m' := by
  obtain ⟨s, hs, a, b, h1, h2, h3⟩ := h
  obtain ⟨s', hs', a', b', h1', h2', h3'⟩ := h'
  rw [hs.eq] at h1 h2
  rw [hs'.eq, h1] at h1'
  rw [hs'.eq, h2] at h2'
  cases h1'; cases h2'
  rw [h3, h3']

theorem ratio_unique {s : Spc K} {win : K} {rb re : Nat} {q q' : Quo K} (h : IsRatio s win rb re q) (h' : IsRatio s win rb re q') :
    q = q' := by
  obtain ⟨k, v, x, med, d, a1, a2, a3, a4, a5⟩ := h
  obtain ⟨k', v', x', med', d', b1, b2, b3, b4, b5⟩ := h'
  obtain ⟨e1, e2⟩ := top_unique a1 b1
  subst e1; subst e2
  rw [a2] at b2
  cases b2
  have em := median_unique a3 b3
  subst em
  have ed := middle_unique a4 b4
  subst ed
  rw [a5, b5]

theorem ratio_ok (s : Spc K) (win : K) (rb re : Nat) (h : WF s) (hwin : 0 ≤ win) (hr : re < s.axis.length) (hrb : rb ≤ re) :
    ∃ (q : Quo K) (a b : K), computeFluxes s win rb re [] = .ok (q, a, b) ∧ IsRatio s win rb re q := by
  obtain ⟨k, v, x, med, d, h1, h2, h3, h4, h5, h6⟩ :=
    C119_fluxes s win rb re [] h hwin hr (Or.inl rfl) ⟨re, hrb, le_refl _, Or.inl rfl⟩
  exact ⟨_, _, _, h5, k, v, x, med, d, h1, h2, h3, h4, rfl⟩

/-! ## The checks -/

theorem far_iff (a v : K) : ((quo a v).le (65 / 100) || (quo a v).ge (135 / 100)) = true ↔ Far a v := by
  unfold quo Far
  by_cases hv : v = 0
  · rw [if_pos hv]
    rcases lt_trichotomy a 0 with h | h | h
    · rw [if_neg (not_lt.2 h.le), if_pos h]
      simp [Quo.le, hv, h.ne]
    · subst h
      simp [Quo.le, Quo.ge, hv]
    · rw [if_pos h]
      simp [Quo.ge, hv, h.ne']
  · rw [if_neg hv]
    simp [Quo.le, Quo.ge, hv]

theorem top_full {flux : List K} {rb re k : Nat} {v : K} (hre : re < flux.length) :
    Top flux (List.replicate flux.length 1) rb re k v ↔ Top flux [] rb re k v := by
  have ho : ∀ j, j < flux.length → (Open (List.replicate flux.length (1 : K)) j ↔ Open ([] : List K) j) := by
    intro j hj
    constructor
    · intro _; exact Or.inl rfl
    · intro _; exact Or.inr ⟨1, by simp [hj], one_ne_zero⟩
  unfold Top
  constructor
  · rintro ⟨a1, a2, a3, a4, a5, a6⟩
    exact ⟨a1, a2, Or.inl rfl, a4, fun j w h1 h2 h3 h4 => a5 j w h1 h2 ((ho j (by omega)).2 h3) h4,
      fun j w h1 h2 h3 h4 => a6 j w h1 h2 ((ho j (by omega)).2 h3) h4⟩
  · rintro ⟨a1, a2, a3, a4, a5, a6⟩
    exact ⟨a1, a2, (ho k (by omega)).2 a3, a4, fun j w h1 h2 h3 h4 => a5 j w h1 h2 (Or.inl rfl) h4,
      fun j w h1 h2 h3 h4 => a6 j w h1 h2 (Or.inl rfl) h4⟩

theorem checks_ok (p : Prm K) (s : Spc K) (r : Nat × Nat) (g : Fit K) (h : WF s) (hr1 : r.1 ≤ r.2) (hr2 : r.2 < s.axis.length) :
    ∃ bad, checks p s r g = .ok bad ∧ ∀ b, b ∈ bad ↔ Refused p s r g b := by
  have hfl := h.flux
  unfold checks
  by_cases ha : g.amp < 0
  · rw [if_pos ha]
    refine ⟨_, rfl, ?_⟩
    intro b
    rw [List.mem_singleton]
    constructor
    · rintro rfl; exact .amp ha
    · intro hb
      cases hb with
      | amp _ => rfl
      | _ => linarith
  rw [if_neg ha]
  have ha' := not_lt.1 ha
  by_cases hw : widthCheck p g ≠ []
  · rw [if_pos hw]
    refine ⟨_, rfl, ?_⟩
    intro b
    unfold widthCheck at hw ⊢
    unfold fwhm at *
    by_cases hn : g.width < 0
    · rw [if_pos hn, List.mem_singleton]
      constructor
      · rintro rfl; exact .width ha' hn
      · intro hb
        cases hb with
        | width _ _ => rfl
        | _ => linarith
    · rw [if_neg hn] at hw ⊢
      have hn' := not_lt.1 hn
      rw [List.mem_append]
      constructor
      · rintro (hb | hb)
        · by_cases h1 : 235 / 100 * g.width < p.minsize
          · rw [if_pos h1, List.mem_singleton] at hb
            subst hb; exact .narrow ha' hn' h1
          · rw [if_neg h1] at hb; simp at hb
        · by_cases h1 : 235 / 100 * g.width > p.maxsize
          · rw [if_pos h1, List.mem_singleton] at hb
            subst hb; exact .wide ha' hn' h1
          · rw [if_neg h1] at hb; simp at hb
      · have hno : ¬ (p.minsize ≤ 235 / 100 * g.width ∧ 235 / 100 * g.width ≤ p.maxsize) := by
          rintro ⟨h1, h2⟩
          rw [if_neg (not_lt.2 h1), if_neg (not_lt.2 h2)] at hw
          exact hw rfl
        intro hb
        cases hb with
        | amp h1 => exact absurd h1 ha
        | width _ h1 => exact absurd h1 hn
        | narrow _ _ h1 => left; rw [if_pos h1]; simp
        | wide _ _ h1 => right; rw [if_pos h1]; simp
        | ampFar _ _ _ _ h1 h2 => exact absurd ⟨h1, h2⟩ hno
        | posFar _ _ _ _ _ h1 h2 => exact absurd ⟨h1, h2⟩ hno
  · rw [if_neg hw]
    have hw' : widthCheck p g = [] := not_not.1 hw
    unfold widthCheck at hw'
    unfold fwhm at hw'
    have hn : ¬ g.width < 0 := by
      intro hn; rw [if_pos hn] at hw'; simp at hw'
    rw [if_neg hn, List.append_eq_nil_iff] at hw'
    have h1 : ¬ 235 / 100 * g.width < p.minsize := by
      intro h1; rw [if_pos h1] at hw'; simp at hw'
    have h2 : ¬ 235 / 100 * g.width > p.maxsize := by
      intro h2; rw [if_pos h2] at hw'; simp at hw'
    have hn' := not_lt.1 hn
    have h1' := not_lt.1 h1
    have h2' := not_lt.1 h2
    by_cases hc : p.noCheck = true
    · rw [if_pos hc]
      refine ⟨_, rfl, ?_⟩
      intro b
      constructor
      · intro hb; simp at hb
      · intro hb
        exfalso
        cases hb with
        | amp h => exact ha h
        | width _ h => exact hn h
        | narrow _ _ h => exact h1 h
        | wide _ _ h => exact h2 h
        | ampFar _ _ _ _ _ _ h _ _ => rw [hc] at h; simp at h
        | posFar _ _ _ _ _ _ _ h _ _ _ => rw [hc] at h; simp at h
    · rw [if_neg hc]
      have hc' : p.noCheck = false := by simpa using hc
      obtain ⟨st, e, hno, hso⟩ := maxLoop_ok s.flux (List.replicate s.flux.length 1) r.1 (r.2 + 1 - r.1) (by simp) (by omega)
      have er : r.1 + (r.2 + 1 - r.1) = r.2 + 1 := by omega
      rw [er] at hno hso
      rw [e, Res.bind_ok]
      cases st with
      | none =>
        have hr3 : r.2 < s.flux.length := by omega
        exact absurd (Or.inr ⟨1, List.getElem?_eq_some_iff.2 ⟨by simpa using hr3, by simp⟩, one_ne_zero⟩) (hno rfl r.2 hr1 (by omega))
      | some mx =>
      obtain ⟨v, k⟩ := mx
      obtain ⟨c1, c2, c3, c4, c5, c6⟩ := hso v k rfl
      have htop : Top s.flux [] r.1 r.2 k v := by
        rw [← top_full (by omega)]
        exact ⟨c2, by omega, c3, c4, fun j w a1 a2 => c5 j w a1 (by omega), c6⟩
      have hk : k < s.axis.length := by omega
      simp only []
      rw [Res.at_of_lt hk, Res.bind_ok]
      refine ⟨_, rfl, ?_⟩
      intro b
      unfold qualityCheck
      rw [List.mem_append]
      constructor
      · rintro (hb | hb)
        · by_cases hq : ((quo (g.amp + g.cont) v).le (65 / 100) || (quo (g.amp + g.cont) v).ge (135 / 100)) = true
          · rw [if_pos hq, List.mem_singleton] at hb
            subst hb
            exact .ampFar k v ha' hn' h1' h2' hc' htop ((far_iff _ _).1 hq)
          · rw [if_neg hq] at hb; simp at hb
        · by_cases hq : |g.pos - s.axis[k]| > 6
          · rw [if_pos hq, List.mem_singleton] at hb
            subst hb
            exact .posFar k v _ ha' hn' h1' h2' hc' htop (List.getElem?_eq_getElem hk) hq
          · rw [if_neg hq] at hb; simp at hb
      · intro hb
        cases hb with
        | amp h => exact absurd h ha
        | width _ h => exact absurd h hn
        | narrow _ _ h => exact absurd h h1
        | wide _ _ h => exact absurd h h2
        | ampFar k' v' _ _ _ _ _ ht hq =>
          obtain ⟨e1, e2⟩ := top_unique htop ht
          subst e1; subst e2
          left
          rw [if_pos ((far_iff _ _).2 hq)]; simp
        | posFar k' v' x' _ _ _ _ _ ht hx hq =>
          obtain ⟨e1, e2⟩ := top_unique htop ht
          subst e1; subst e2
          rw [List.getElem?_eq_getElem hk] at hx
          cases hx
          right
          rw [if_pos hq]; simp

/-! ## One peak -/

theorem refused_before {p : Prm K} {s : Spc K} {r : Nat × Nat} {g : Fit K} {b : Status} (h : Refused p s r g b) :
    b ≠ .fitFailed ∧ b ≠ .belowCut ∧ b ≠ .detected := by
  cases h <;> simp

/-- A range of samples of the spectrum. -/
def Within (s : Spc K) (peaks : List (Nat × Nat)) : Prop := ∀ r ∈ peaks, r.1 ≤ r.2 ∧ r.2 < s.axis.length

theorem passes_unique {p : Prm K} {s : Spc K} {fit : Int × Int → Option (Fit K)} {peaks : List (Nat × Nat)} {enl : List (Int × Int)}
    {j : Nat} {g g' : Fit K} {q q' : Quo K} (h : Passes p s fit peaks enl j g q) (h' : Passes p s fit peaks enl j g' q') :
    g = g' ∧ q = q' := by
  obtain ⟨r, e, a1, a2, a3, a4, a5⟩ := h
  obtain ⟨r', e', b1, b2, b3, b4, b5⟩ := h'
  rw [a1] at b1; cases b1
  rw [a2] at b2; cases b2
  rw [a3] at b3; cases b3
  exact ⟨rfl, ratio_unique a5 b5⟩

/-- What one peak adds to the state. -/
theorem peakStep_ok (p : Prm K) (s : Spc K) (fit : Int × Int → Option (Fit K)) (peaks : List (Nat × Nat)) (enl : List (Int × Int))
    (h : WF s) (hwin : 0 ≤ p.win) (hp : Within s peaks) (hl : peaks.length ≤ enl.length) (j : Nat) (hj : j < peaks.length)
    (st : St K) :
    ∃ (bs : List Status) (c : List (Det K)) (t : List ((Nat × Nat) × (K × K × K))), peakStep p s fit peaks enl j st = .ok ⟨st.status ++ bs.map (fun b => (j, b)), st.cat ++ c, st.retest ++ t⟩ ∧
      (∀ b, b ∈ bs ↔ Says p s fit peaks enl j b) ∧
      ((c = [] ∧ ¬ Says p s fit peaks enl j .detected) ∨ ∃ d, c = [d] ∧ IsLine p s fit peaks enl j d) ∧
      ((t = [] ∧ ¬ Says p s fit peaks enl j .belowCut) ∨ ∃ x, t = [x] ∧ IsRetest p s fit peaks enl j x) := by
  have hje : j < enl.length := by omega
  have hpj : peaks[j]? = some peaks[j] := List.getElem?_eq_getElem hj
  have hej : enl[j]? = some enl[j] := List.getElem?_eq_getElem hje
  obtain ⟨hr1, hr2⟩ := hp peaks[j] (List.getElem_mem hj)
  unfold peakStep
  rw [Res.at_of_lt hje, Res.bind_ok]
  cases hf : fit enl[j] with
  | none =>
    have hnp : ∀ g q, ¬ Passes p s fit peaks enl j g q := by
      rintro g q ⟨r, e, a1, a2, a3, _⟩
      rw [hej] at a2; cases a2
      rw [hf] at a3; cases a3
    refine ⟨[.fitFailed], [], [], by simp, ?_, Or.inl ⟨rfl, ?_⟩, Or.inl ⟨rfl, ?_⟩⟩
    · intro b
      rw [List.mem_singleton]
      constructor
      · rintro rfl; exact .fitFailed _ hj hej hf
      · intro hb
        cases hb with
        | fitFailed _ _ _ _ => rfl
        | refused r e g b a1 a2 a3 a4 => rw [hej] at a2; cases a2; rw [hf] at a3; cases a3
        | belowCut g q hq _ => exact absurd hq (hnp g q)
        | detected g q hq _ => exact absurd hq (hnp g q)
    · intro hb
      cases hb with
      | refused r e g b a1 a2 a3 a4 => exact (refused_before a4).2.2 rfl
      | detected g q hq _ => exact hnp g q hq
    · intro hb
      cases hb with
      | refused r e g b a1 a2 a3 a4 => exact (refused_before a4).2.1 rfl
      | belowCut g q hq _ => exact hnp g q hq
  | some g =>
    simp only []
    rw [Res.at_of_lt hj, Res.bind_ok]
    obtain ⟨bad, e1, hbad⟩ := checks_ok p s peaks[j] g h hr1 hr2
    rw [e1, Res.bind_ok]
    have hnofail : ¬ Says p s fit peaks enl j .fitFailed := by
      intro hb
      cases hb with
      | fitFailed e _ a2 a3 => rw [hej] at a2; cases a2; rw [hf] at a3; cases a3
      | refused r e g b a1 a2 a3 a4 => exact (refused_before a4).1 rfl
    by_cases hb0 : bad ≠ []
    · rw [if_pos hb0]
      obtain ⟨b0, hb0⟩ := List.exists_mem_of_ne_nil _ hb0
      have hnp : ∀ g q, ¬ Passes p s fit peaks enl j g q := by
        rintro g' q ⟨r, e, a1, a2, a3, a4, _⟩
        rw [hpj] at a1; cases a1
        rw [hej] at a2; cases a2
        rw [hf] at a3; cases a3
        exact a4 b0 ((hbad b0).1 hb0)
      refine ⟨bad, [], [], by simp, ?_, Or.inl ⟨rfl, ?_⟩, Or.inl ⟨rfl, ?_⟩⟩
      · intro b
        rw [hbad b]
        constructor
        · intro hb; exact .refused _ _ _ _ hpj hej hf hb
        · intro hb
          cases hb with
          | fitFailed e x1 x2 x3 => exact absurd (.fitFailed e x1 x2 x3) hnofail
          | refused r e g' b a1 a2 a3 a4 =>
            rw [hpj] at a1; cases a1
            rw [hej] at a2; cases a2
            rw [hf] at a3; cases a3
            exact a4
          | belowCut g q hq _ => exact absurd hq (hnp g q)
          | detected g q hq _ => exact absurd hq (hnp g q)
      · intro hb
        cases hb with
        | refused r e g b a1 a2 a3 a4 => exact (refused_before a4).2.2 rfl
        | detected g q hq _ => exact hnp g q hq
      · intro hb
        cases hb with
        | refused r e g b a1 a2 a3 a4 => exact (refused_before a4).2.1 rfl
        | belowCut g q hq _ => exact hnp g q hq
    · rw [if_neg hb0]
      have hbe : bad = [] := not_not.1 hb0
      have hgood : ∀ b, ¬ Refused p s peaks[j] g b := by
        intro b hb
        have := (hbad b).2 hb
        rw [hbe] at this
        simp at this
      obtain ⟨q, a, b, e2, hq⟩ := ratio_ok s p.win peaks[j].1 peaks[j].2 h hwin hr2 hr1
      have hpass : Passes p s fit peaks enl j g q := ⟨_, _, hpj, hej, hf, hgood, hq⟩
      have hnr : ∀ (r : Nat × Nat) (e : Int × Int) (g' : Fit K) b, peaks[j]? = some r → enl[j]? = some e → fit e = some g' →
          ¬ Refused p s r g' b := by
        intro r e g' b a1 a2 a3
        rw [hpj] at a1; cases a1
        rw [hej] at a2; cases a2
        rw [hf] at a3; cases a3
        exact hgood b
      unfold ratioTest
      rw [e2, Res.bind_ok]
      simp only []
      by_cases hcut : q.lt p.cut = true
      · rw [if_pos hcut]
        refine ⟨[.belowCut], [], [(peaks[j], (g.pos, g.amp, g.width))], by simp, ?_, Or.inl ⟨rfl, ?_⟩,
          Or.inr ⟨_, rfl, g, q, hpass, hcut, hpj, rfl⟩⟩
        · intro b
          rw [List.mem_singleton]
          constructor
          · rintro rfl; exact .belowCut g q hpass hcut
          · intro hb
            cases hb with
            | fitFailed e x1 x2 x3 => exact absurd (.fitFailed e x1 x2 x3) hnofail
            | refused r e g' b a1 a2 a3 a4 => exact absurd a4 (hnr r e g' b a1 a2 a3)
            | belowCut _ _ _ _ => rfl
            | detected g' q' hq' hc' =>
              obtain ⟨_, eq⟩ := passes_unique hpass hq'
              subst eq
              rw [hcut] at hc'; simp at hc'
        · intro hb
          cases hb with
          | refused r e g' b a1 a2 a3 a4 => exact absurd a4 (hnr r e g' _ a1 a2 a3)
          | detected g' q' hq' hc' =>
            obtain ⟨_, eq⟩ := passes_unique hpass hq'
            subst eq
            rw [hcut] at hc'; simp at hc'
      · rw [if_neg hcut]
        have hcut' : q.lt p.cut = false := by simpa using hcut
        refine ⟨[.detected], _, [], by simp; rfl, ?_, Or.inr ⟨_, rfl, ?_⟩, Or.inl ⟨rfl, ?_⟩⟩
        · intro b
          rw [List.mem_singleton]
          constructor
          · rintro rfl; exact .detected g q hpass hcut'
          · intro hb
            cases hb with
            | fitFailed e x1 x2 x3 => exact absurd (.fitFailed e x1 x2 x3) hnofail
            | refused r e g' b a1 a2 a3 a4 => exact absurd a4 (hnr r e g' b a1 a2 a3)
            | detected _ _ _ _ => rfl
            | belowCut g' q' hq' hc' =>
              obtain ⟨_, eq⟩ := passes_unique hpass hq'
              subst eq
              exact absurd hc' hcut
        · exact ⟨g, hpass, hcut', rfl, rfl, rfl, rfl, rfl, rfl, rfl, rfl, rfl⟩
        · intro hb
          cases hb with
          | refused r e g' b a1 a2 a3 a4 => exact absurd a4 (hnr r e g' _ a1 a2 a3)
          | belowCut g' q' hq' hc' =>
            obtain ⟨_, eq⟩ := passes_unique hpass hq'
            subst eq
            exact absurd hc' hcut

/-! ## C120 -/

/-- **C120** The first stage of the line detection never fails on ranges of samples of the spectrum. The lines are those of the
peaks whose fit succeeds, that no check refuses and whose ratio is not below the cut, in the order of the peaks, with the values
of the fit; the peaks to test again are those that only the ratio refuses. The reported statuses are exactly what is true of
each peak. -/
theorem C120_detect (p : Prm K) (s : Spc K) (fit : Int × Int → Option (Fit K)) (peaks : List (Nat × Nat)) (enl : List (Int × Int))
    (h : WF s) (hwin : 0 ≤ p.win) (hp : Within s peaks) (hl : peaks.length ≤ enl.length) :
    ∃ (st : St K) (D R : List Nat), Res.foldN (peakStep p s fit peaks enl) 0 peaks.length ⟨[], [], []⟩ = .ok st ∧
      D.Pairwise (· < ·) ∧ R.Pairwise (· < ·) ∧
      (∀ j, j ∈ D ↔ Says p s fit peaks enl j .detected) ∧ (∀ j, j ∈ R ↔ Says p s fit peaks enl j .belowCut) ∧
      List.Forall₂ (IsLine p s fit peaks enl) D st.cat ∧ List.Forall₂ (IsRetest p s fit peaks enl) R st.retest ∧
      (∀ j b, (j, b) ∈ st.status ↔ Says p s fit peaks enl j b) := by
  have H := Res.foldN_inv (f := peakStep p s fit peaks enl) (fun i st => ∃ D R : List Nat,
      D.Pairwise (· < ·) ∧ R.Pairwise (· < ·) ∧
      (∀ j, j ∈ D ↔ j < i ∧ Says p s fit peaks enl j .detected) ∧ (∀ j, j ∈ R ↔ j < i ∧ Says p s fit peaks enl j .belowCut) ∧
      List.Forall₂ (IsLine p s fit peaks enl) D st.cat ∧ List.Forall₂ (IsRetest p s fit peaks enl) R st.retest ∧
      (∀ j b, (j, b) ∈ st.status ↔ j < i ∧ Says p s fit peaks enl j b)) peaks.length 0 ⟨[], [], []⟩ ?_ ?_
  · obtain ⟨st, e, D, R, a1, a2, a3, a4, a5, a6, a7⟩ := H
    have hlt : ∀ j b, Says p s fit peaks enl j b → j < 0 + peaks.length := by
      intro j b hb
      have hg : ∀ r, peaks[j]? = some r → j < 0 + peaks.length := by
        intro r hr
        have := (List.getElem?_eq_some_iff.1 hr).1
        omega
      cases hb with
      | fitFailed _ h _ _ => omega
      | refused r _ _ _ h _ _ _ => exact hg r h
      | belowCut g q h _ => obtain ⟨r, e, hr, _⟩ := h; exact hg r hr
      | detected g q h _ => obtain ⟨r, e, hr, _⟩ := h; exact hg r hr
    refine ⟨st, D, R, e, a1, a2, ?_, ?_, a5, a6, ?_⟩
    · intro j; rw [a3 j]; exact ⟨fun h => h.2, fun h => ⟨hlt _ _ h, h⟩⟩
    · intro j; rw [a4 j]; exact ⟨fun h => h.2, fun h => ⟨hlt _ _ h, h⟩⟩
    · intro j b; rw [a7 j b]; exact ⟨fun h => h.2, fun h => ⟨hlt _ _ h, h⟩⟩
  · exact ⟨[], [], List.Pairwise.nil, List.Pairwise.nil, by simp, by simp, .nil, .nil, by simp⟩
  · rintro i st _ hi ⟨D, R, a1, a2, a3, a4, a5, a6, a7⟩
    obtain ⟨bs, c, t, e, b1, b2, b3⟩ := peakStep_ok p s fit peaks enl h hwin hp hl i (by omega) st
    refine ⟨_, e, ?_⟩
    have hD : ∃ D', D'.Pairwise (· < ·) ∧ (∀ j, j ∈ D' ↔ j < i + 1 ∧ Says p s fit peaks enl j .detected) ∧
        List.Forall₂ (IsLine p s fit peaks enl) D' (st.cat ++ c) := by
      rcases b2 with ⟨rfl, hn⟩ | ⟨d, rfl, hd⟩
      · refine ⟨D, a1, ?_, by simpa using a5⟩
        intro j
        rw [a3 j]
        constructor
        · rintro ⟨x, y⟩; exact ⟨by omega, y⟩
        · rintro ⟨x, y⟩
          refine ⟨?_, y⟩
          by_contra hc
          have : j = i := by omega
          subst this
          exact hn y
      · refine ⟨D ++ [i], ?_, ?_, List.rel_append a5 (.cons hd .nil)⟩
        · rw [List.pairwise_append]
          refine ⟨a1, by simp, ?_⟩
          intro x hx y hy
          rw [List.mem_singleton] at hy
          subst hy
          exact ((a3 x).1 hx).1
        · obtain ⟨g, hg1, hg2, _⟩ := hd
          intro j
          rw [List.mem_append, a3 j, List.mem_singleton]
          constructor
          · rintro (⟨x, y⟩ | rfl)
            · exact ⟨by omega, y⟩
            · exact ⟨by omega, .detected g _ hg1 hg2⟩
          · rintro ⟨x, y⟩
            by_cases hc : j = i
            · exact Or.inr hc
            · exact Or.inl ⟨by omega, y⟩
    have hR : ∃ R', R'.Pairwise (· < ·) ∧ (∀ j, j ∈ R' ↔ j < i + 1 ∧ Says p s fit peaks enl j .belowCut) ∧
        List.Forall₂ (IsRetest p s fit peaks enl) R' (st.retest ++ t) := by
      rcases b3 with ⟨rfl, hn⟩ | ⟨d, rfl, hd⟩
      · refine ⟨R, a2, ?_, by simpa using a6⟩
        intro j
        rw [a4 j]
        constructor
        · rintro ⟨x, y⟩; exact ⟨by omega, y⟩
        · rintro ⟨x, y⟩
          refine ⟨?_, y⟩
          by_contra hc
          have : j = i := by omega
          subst this
          exact hn y
      · refine ⟨R ++ [i], ?_, ?_, List.rel_append a6 (.cons hd .nil)⟩
        · rw [List.pairwise_append]
          refine ⟨a2, by simp, ?_⟩
          intro x hx y hy
          rw [List.mem_singleton] at hy
          subst hy
          exact ((a4 x).1 hx).1
        · obtain ⟨g, q, hg1, hg2, _⟩ := hd
          intro j
          rw [List.mem_append, a4 j, List.mem_singleton]
          constructor
          · rintro (⟨x, y⟩ | rfl)
            · exact ⟨by omega, y⟩
            · exact ⟨by omega, .belowCut g q hg1 hg2⟩
          · rintro ⟨x, y⟩
            by_cases hc : j = i
            · exact Or.inr hc
            · exact Or.inl ⟨by omega, y⟩
    obtain ⟨D', d1, d2, d3⟩ := hD
    obtain ⟨R', r1, r2, r3⟩ := hR
    refine ⟨D', R', d1, r1, d2, r2, d3, r3, ?_⟩
    intro j b
    rw [List.mem_append, a7 j b, List.mem_map]
    constructor
    · rintro (⟨x, y⟩ | ⟨b', x, y⟩)
      · exact ⟨by omega, y⟩
      · cases y
        exact ⟨by omega, (b1 b).1 x⟩
    · rintro ⟨x, y⟩
      by_cases hc : j = i
      · subst hc
        exact Or.inr ⟨b, (b1 b).2 y, rfl⟩
      · exact Or.inl ⟨by omega, y⟩

/-- **C120** When no peak is refused by its ratio alone, the result of the detection is that of the first stage, whatever the sort. -/
theorem C120_no_retest [FloorRing K] (srt : List (Det K) → List (Det K)) (p : Prm K) (s : Spc K) (fit : Int × Int → Option (Fit K))
    (peaks : List (Nat × Nat)) (enl : List (Int × Int))
    (h : WF s) (hwin : 0 ≤ p.win) (hp : Within s peaks) (hl : peaks.length ≤ enl.length)
    (hno : ∀ j, ¬ Says p s fit peaks enl j .belowCut) :
    ∃ (status : List (Nat × Status)) (cat : List (Det K)) (D : List Nat), compute srt p s fit peaks enl = .ok (status, cat) ∧
      D.Pairwise (· < ·) ∧ (∀ j, j ∈ D ↔ Says p s fit peaks enl j .detected) ∧ List.Forall₂ (IsLine p s fit peaks enl) D cat ∧
      (∀ j b, (j, b) ∈ status ↔ Says p s fit peaks enl j b) := by
  obtain ⟨st, D, R, e, a1, a2, a3, a4, a5, a6, a7⟩ := C120_detect p s fit peaks enl h hwin hp hl
  have hR : R = [] := by
    rw [List.eq_nil_iff_forall_not_mem]
    intro j hj
    exact hno j ((a4 j).1 hj)
  subst hR
  refine ⟨st.status, st.cat, D, ?_, a1, a3, a5, a7⟩
  unfold compute
  have := a6.length_eq
  rw [e, Res.bind_ok, if_pos (by simpa using this.symm)]

/-- **C120** Every peak has at least one status. -/
theorem C120_status (p : Prm K) (s : Spc K) (fit : Int × Int → Option (Fit K)) (peaks : List (Nat × Nat)) (enl : List (Int × Int))
    (h : WF s) (hwin : 0 ≤ p.win) (hp : Within s peaks) (hl : peaks.length ≤ enl.length) (j : Nat) (hj : j < peaks.length) :
    ∃ b, Says p s fit peaks enl j b := by
  have hpj : peaks[j]? = some peaks[j] := List.getElem?_eq_getElem hj
  have hej : enl[j]? = some enl[j] := List.getElem?_eq_getElem (by omega)
  obtain ⟨hr1, hr2⟩ := hp peaks[j] (List.getElem_mem hj)
  cases hf : fit enl[j] with
  | none => exact ⟨_, .fitFailed _ hj hej hf⟩
  | some g =>
    by_cases hb : ∃ b, Refused p s peaks[j] g b
    · obtain ⟨b, hb⟩ := hb
      exact ⟨b, .refused _ _ _ _ hpj hej hf hb⟩
    · rw [not_exists] at hb
      obtain ⟨q, _, _, _, hq⟩ := ratio_ok s p.win peaks[j].1 peaks[j].2 h hwin hr2 hr1
      have hpass : Passes p s fit peaks enl j g q := ⟨_, _, hpj, hej, hf, hb, hq⟩
      by_cases hc : q.lt p.cut = true
      · exact ⟨_, .belowCut g q hpass hc⟩
      · exact ⟨_, .detected g q hpass (by simpa using hc)⟩

/-! ## Examples -/

/-- A spectrum with one peak of height 9 above 1 and mean error 2 around it. -/
def exSpc : Spc ℚ := ⟨[1, 2, 3, 4, 5], [1, 1, 9, 1, 0], [2, 2, 2, 2, 2]⟩

/-- A good fit of this peak. -/
def exFit : Fit ℚ := ⟨8, 3, 1, 1, 1, 1, 1⟩

/-- Parameters: cut 2, strong beyond `2 · 3 / 2`. -/
def exPrm : Prm ℚ := ⟨.all, 2, 3 / 2, 2, 1, 10, false⟩

/-- The fit of the peak is accepted and gives a strong line of ratio 4. -/
example : compute id exPrm exSpc (fun _ => some exFit) [(1, 3)] [(0, 4)] =
    .ok ([(0, .detected)], [⟨"detected_peak_0", 3, .all, .strong, 8, 1, .num 4, 1, 1, 1⟩]) := by decide +kernel

/-- With a cut of 5 the ratio 4 is too low: the peak is tested again, and without strong line it is lost. -/
example : compute id { exPrm with cut := 5 } exSpc (fun _ => some exFit) [(1, 3)] [(0, 4)] = .ok ([(0, .belowCut)], []) := by
  decide +kernel

/-- A peak can have two statuses: the list of the statuses is then longer than that of the peaks. -/
example : compute id exPrm exSpc (fun _ => some { exFit with amp := 80, pos := 30 }) [(1, 3)] [(0, 4)] =
    .ok ([(0, .ampFar), (0, .posFar)], []) := by decide +kernel

/-- The hypotheses of C120 hold of this spectrum. -/
example : WF exSpc ∧ Within exSpc [(1, 3)] ∧ (0 : ℚ) ≤ exPrm.win := by
  refine ⟨⟨?_, rfl, Or.inl rfl⟩, ?_, by norm_num [exPrm]⟩
  · unfold SAxis.Increasing exSpc
    decide +kernel
  · intro r hr
    rw [List.mem_singleton] at hr
    subst hr
    simp [exSpc]

end LineDetect
end Amazed
