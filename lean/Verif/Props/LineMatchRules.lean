import Verif.Props.LineMatchResult

set_option linter.unusedSectionVars false
set_option linter.unusedVariables false

/-! # The rules of line matching (C126) -/

namespace Amazed
namespace LineMatch
open Amp (LType Force)
open LineCat (Line Cat)
open LineDetect (Det Quo Spc)

variable {K : Type} [Field K] [LinearOrder K] [IsStrictOrderedRing K]

/-! ## Specification -/

/-- The solution `s` gets the verdict `c` of the rules at the mean of its redshifts. -/
def Verdict (spc : Spc K) (rest : Cat K) (lo hi w : K) (s : List (Sol K)) (c : ℤ) : Prop :=
  check spc rest lo hi w ((s.map (·.z)).sum / (s.length : K)) s = .ok c

/-- The number of the lines of the solution whose name contains `tag`. -/
def tagged (tag : String) (s : List (Sol K)) : Nat := (s.filter fun x => decide (tag.toList <:+: x.rest.name.toList)).length

/-- The first line of the catalogue whose name contains `tag` falls, at redshift `z`, exactly on the wavelength `w`. -/
def TagOn (rest : Cat K) (tag : String) (z w : K) : Prop :=
  ∃ l, rest.find? (fun r => decide (tag.toList <:+: r.2.name.toList)) = some l ∧ l.2.pos * (1 + z) = w

/-! ## The loop -/

theorem filterLoop_spec (chk : List (Sol K) → Res ℤ) : ∀ (l : List (List (Sol K))) (a r : Lists K), filterLoop chk l a = .ok r →
    ∃ cs : List ℤ, List.Forall₂ (fun s c => chk s = .ok c) l cs ∧
      r.sets = a.sets ++ (((l.zip cs).filter fun x => decide (x.2 ≤ 0)).map (·.1)) ∧
      r.bad = a.bad ++ (((l.zip cs).filter fun x => decide (0 < x.2)).map (·.1)) ∧
      r.why = a.why ++ (((l.zip cs).filter fun x => decide (0 < x.2)).map (·.2))
  | [], a, r, h => by
    simp only [filterLoop, Res.ok.injEq] at h
    subst h
    exact ⟨[], List.Forall₂.nil, by simp, by simp, by simp⟩
  | s :: l, a, r, h => by
    unfold filterLoop at h
    obtain ⟨c, hc, h⟩ := Res.bind_eq_ok.1 h
    obtain ⟨cs, h1, h2, h3, h4⟩ := filterLoop_spec chk l _ r h
    refine ⟨c :: cs, List.Forall₂.cons hc h1, ?_, ?_, ?_⟩
    · rw [h2]
      by_cases h0 : c ≤ 0
      · simp [h0]
      · simp [h0]
    · rw [h3]
      by_cases h0 : c ≤ 0
      · simp [h0, not_lt.2 h0]
      · simp [h0, not_le.1 h0]
    · rw [h4]
      by_cases h0 : c ≤ 0
      · simp [h0, not_lt.2 h0]
      · simp [h0, not_le.1 h0]

/-- **C126**: when the rules can be evaluated, the solutions without objection stay, in their order, and the others are added, in
their order and with the number of the objection, after those refused before. -/
theorem C126_partition (spc : Spc K) (rest : Cat K) (lo hi w : K) (r r' : Lists K)
    (h : filterWithRules spc rest lo hi w r = .ok r') :
    ∃ cs : List ℤ, List.Forall₂ (Verdict spc rest lo hi w) r.sets cs ∧
      r'.sets = (((r.sets.zip cs).filter fun x => decide (x.2 ≤ 0)).map (·.1)) ∧
      r'.bad = r.bad ++ (((r.sets.zip cs).filter fun x => decide (0 < x.2)).map (·.1)) ∧
      r'.why = r.why ++ (((r.sets.zip cs).filter fun x => decide (0 < x.2)).map (·.2)) := by
  unfold filterWithRules at h
  by_cases h0 : r.sets.length < 1
  · rw [if_pos h0, Res.ok.injEq] at h
    subst h
    have : r.sets = [] := List.length_eq_zero_iff.1 (by omega)
    exact ⟨[], by rw [this]; exact List.Forall₂.nil, by simp [this], by simp [this], by simp [this]⟩
  · rw [if_neg h0] at h
    obtain ⟨cs, h1, h2, h3, h4⟩ := filterLoop_spec _ _ _ _ h
    exact ⟨cs, h1, by simpa using h2, h3, h4⟩

/-! ## The rules -/

theorem inside_iff (lo hi w x : K) (b : Bool) (hlo : 0 < lo) (hhi : 0 < hi) : inside lo hi w b x = true ↔ x = w := by
  unfold inside
  have h1 : lo + (if b then 1 else 0) ≠ 0 := by
    cases b
    · simpa using hlo.ne'
    · simp only [if_true]; positivity
  have h2 : hi + (if b then 1 else 0) ≠ 0 := by
    cases b
    · simpa using hhi.ne'
    · simp only [if_true]; positivity
  simp only [if_pos h1, if_pos h2, decide_eq_true_eq]
  exact ⟨fun h => le_antisymm h.2 h.1, fun h => ⟨h.ge, h.le⟩⟩

theorem tagInside_iff (lo hi w z : K) (rest : Cat K) (tag : String) (hlo : 0 < lo) (hhi : 0 < hi) :
    tagInside lo hi w z rest tag = true ↔ TagOn rest tag z w := by
  unfold tagInside restLambda TagOn has
  cases h : rest.find? (fun r => decide (tag.toList <:+: r.2.name.toList)) with
  | none => simp
  | some l =>
    simp only [Option.map_some]
    rw [inside_iff lo hi w _ true hlo hhi]
    simp

/-- **C126**: for a wavelength range of positive ends, the second rule refuses a solution exactly if it has one `[OIII]b` line and no
`[OIII]a` line, and the place of the latter is exactly the wavelength equal to the window size (instead of: anywhere in the range). -/
theorem C126_rule02_partial (rest : Cat K) (lo hi w z : K) (s : List (Sol K)) (hlo : 0 < lo) (hhi : 0 < hi) :
    rule02 rest lo hi w z s = false ↔ tagged "[OIII]b" s = 1 ∧ tagged "[OIII]a" s = 0 ∧ TagOn rest "[OIII]a" z w := by
  unfold rule02
  by_cases h : TagOn rest "[OIII]a" z w
  · have := (tagInside_iff lo hi w z rest "[OIII]a" hlo hhi).2 h
    simp only [this, Bool.and_true, Bool.not_eq_false', Bool.and_eq_true, decide_eq_true_eq, h, and_true]
    rfl
  · have : tagInside lo hi w z rest "[OIII]a" = false := by
      rw [← Bool.not_eq_true, tagInside_iff lo hi w z rest _ hlo hhi]; exact h
    simp [this, h]

/-- **C126**: likewise the third rule for one `Hbeta` line without exactly one `Halpha` line. -/
theorem C126_rule03 (rest : Cat K) (lo hi w z : K) (s : List (Sol K)) (hlo : 0 < lo) (hhi : 0 < hi) :
    rule03 rest lo hi w z s = false ↔ tagged "Hbeta" s = 1 ∧ tagged "Halpha" s ≠ 1 ∧ TagOn rest "Halpha" z w := by
  unfold rule03
  by_cases h : TagOn rest "Halpha" z w
  · have := (tagInside_iff lo hi w z rest "Halpha" hlo hhi).2 h
    simp only [this, Bool.and_true, Bool.not_eq_false', Bool.and_eq_true, decide_eq_true_eq, h, and_true]
    rfl
  · have : tagInside lo hi w z rest "Halpha" = false := by
      rw [← Bool.not_eq_true, tagInside_iff lo hi w z rest _ hlo hhi]; exact h
    simp [this, h]

theorem strong_any (rest : Cat K) (hr : LineCat.Ok rest) (lo hi w z : K) (hlo : 0 < lo) (hhi : 0 < hi) :
    ((LineCat.filtered .emission .strong rest).any (fun l => inside lo hi w false (l.2.pos * (1 + z)))) = true ↔
      ∃ l ∈ rest, l.2.type = .emission ∧ l.2.force = .strong ∧ l.2.pos * (1 + z) = w := by
  rw [List.any_eq_true, (LineCat.C78_filtered .emission .strong rest hr).1]
  constructor
  · rintro ⟨l, hl, hd⟩
    rw [List.mem_filter] at hl
    have h2 := hl.2
    simp only [Bool.and_eq_true, Bool.or_eq_true, decide_eq_true_eq, reduceCtorEq, false_or] at h2
    exact ⟨l, hl.1, h2.1.symm, h2.2.symm, (inside_iff lo hi w _ false hlo hhi).1 hd⟩
  · rintro ⟨l, hl, h1, h2, h3⟩
    exact ⟨l, List.mem_filter.2 ⟨hl, by simp [h1, h2]⟩, (inside_iff lo hi w _ false hlo hhi).2 h3⟩

/-- `m` is the largest of the ratios of the lines `l` and of `m0`: it is one of them and none is above it. -/
def TopOf (spc : Spc K) (w z : K) (l : List (Sol K)) (m0 m : Quo K × K) : Prop :=
  ((m.1 = m0.1 ∨ ∃ x ∈ l, ∃ q, lineSnr spc w (x.rest.pos * (1 + z)) = .ok q ∧ m.1 = q.1) ∧ ltQ m.1 m0.1 = false ∧
    ∀ x ∈ l, ∀ q, lineSnr spc w (x.rest.pos * (1 + z)) = .ok q → ltQ m.1 q.1 = false) ∧
  (m.2 = m0.2 ∨ ∃ x ∈ l, ∃ q, lineSnr spc w (x.rest.pos * (1 + z)) = .ok q ∧ m.2 = q.2) ∧ m0.2 ≤ m.2 ∧
    ∀ x ∈ l, ∀ q, lineSnr spc w (x.rest.pos * (1 + z)) = .ok q → q.2 ≤ m.2

theorem ltQ_irrefl (a : Quo K) : ltQ a a = false := by
  cases a <;> simp [ltQ]

/-- A number or `+inf`. -/
def Up : Quo K → Prop
  | .num _ => True
  | .pinf => True
  | _ => False

theorem ltQ_up {a b : Quo K} (h : ltQ a b = true) : Up b := by
  cases a <;> cases b <;> simp_all [ltQ, Up]

theorem ltQ_raise {q p m : Quo K} (hm : Up m) (h : ltQ q p = true) (hp : ltQ m p = false) : ltQ q m = true := by
  cases q <;> cases p <;> cases m <;> simp_all [ltQ, Up]
  exact lt_of_lt_of_le h hp

theorem ltQ_mono {m a q : Quo K} (ha : ltQ a q = false) (hup : Up a) (h : ltQ m a = false) : ltQ m q = false := by
  by_contra hc
  rw [Bool.not_eq_false] at hc
  rw [ltQ_raise hup hc ha] at h
  cases h

theorem weakMax_spec (spc : Spc K) (w z : K) : ∀ (l : List (Sol K)) (m : Quo K × K), Up m.1 →
    (∀ x ∈ l, ∃ q, lineSnr spc w (x.rest.pos * (1 + z)) = .ok q) →
    ∃ r, weakMax spc w z l m = .ok r ∧ TopOf spc w z l m r ∧ Up r.1
  | [], m, hup, _ => ⟨m, rfl, ⟨⟨Or.inl rfl, ltQ_irrefl _, by simp⟩, Or.inl rfl, le_rfl, by simp⟩, hup⟩
  | x :: l, m, hup, hall => by
    obtain ⟨q, hq⟩ := hall x (by simp)
    have hup' : Up (if ltQ m.1 q.1 then q.1 else m.1) := by
      split
      · rename_i hc; exact ltQ_up hc
      · exact hup
    obtain ⟨r, hr, ⟨⟨h1, h2, h3⟩, h4, h5, h6⟩, h7⟩ := weakMax_spec spc w z l (if ltQ m.1 q.1 then q.1 else m.1, max m.2 q.2) hup'
      (fun y hy => hall y (by simp [hy]))
    refine ⟨r, by unfold weakMax; rw [hq, Res.bind_ok, hr], ⟨⟨?_, ?_, ?_⟩, ?_, ?_, ?_⟩, h7⟩
    · rcases h1 with h1 | ⟨y, hy, q', hq', e⟩
      · rw [h1]
        simp only
        split
        · exact Or.inr ⟨x, by simp, q, hq, rfl⟩
        · exact Or.inl rfl
      · exact Or.inr ⟨y, List.mem_cons_of_mem _ hy, q', hq', e⟩
    · refine ltQ_mono ?_ hup' h2
      split
      · rename_i hc
        by_contra hn
        rw [Bool.not_eq_false] at hn
        cases hm : m.1 <;> cases hqq : q.1 <;> rw [hm, hqq] at hc hn <;> simp [ltQ] at hc hn
        exact absurd (hc.trans hn) (lt_irrefl _)
      · exact ltQ_irrefl _
    · intro y hy q' hq'
      rcases List.mem_cons.1 hy with rfl | hy
      · rw [hq] at hq'
        cases hq'
        refine ltQ_mono ?_ hup' h2
        split
        · exact ltQ_irrefl _
        · rename_i hc; rwa [Bool.not_eq_true] at hc
      · exact h3 y hy q' hq'
    · rcases h4 with h4 | ⟨y, hy, q', hq', e⟩
      · rw [h4]
        rcases max_choice m.2 q.2 with hm | hm
        · exact Or.inl hm
        · exact Or.inr ⟨x, by simp, q, hq, hm⟩
      · exact Or.inr ⟨y, List.mem_cons_of_mem _ hy, q', hq', e⟩
    · exact (le_max_left _ _).trans h5
    · intro y hy q' hq'
      rcases List.mem_cons.1 hy with rfl | hy
      · rw [hq] at hq'
        cases hq'
        exact (le_max_right _ _).trans h5
      · exact h6 y hy q' hq'

theorem strongOk_spec (spc : Spc K) (w z : K) (m : Quo K × K) : ∀ (c : Cat K),
    (∀ l ∈ c, ∃ q, lineSnr spc w (l.2.pos * (1 + z)) = .ok q) → ∃ b, strongOk spc w z m c = .ok b ∧
    (b = false ↔ ∃ l ∈ c, ∃ q, lineSnr spc w (l.2.pos * (1 + z)) = .ok q ∧ ltQ q.1 m.1 = true ∧ q.2 < m.2)
  | [], _ => ⟨true, rfl, by simp⟩
  | l :: c, hall => by
    obtain ⟨q, hq⟩ := hall l (by simp)
    unfold strongOk
    rw [hq, Res.bind_ok]
    by_cases h0 : ltQ q.1 m.1 = true ∧ q.2 < m.2
    · rw [if_pos h0]
      exact ⟨false, rfl, by simp only [true_iff]; exact ⟨l, by simp, q, hq, h0.1, h0.2⟩⟩
    · rw [if_neg h0]
      obtain ⟨b, hb, e⟩ := strongOk_spec spc w z m c (fun x hx => hall x (by simp [hx]))
      refine ⟨b, hb, e.trans ⟨?_, ?_⟩⟩
      · rintro ⟨l', hl', r⟩
        exact ⟨l', List.mem_cons_of_mem _ hl', r⟩
      · rintro ⟨l', hl', q', hq', r⟩
        rcases List.mem_cons.1 hl' with rfl | hl'
        · rw [hq] at hq'
          cases hq'
          exact absurd r h0
        · exact ⟨l', hl', q', hq', r⟩

/-- **C126**: when the ratios can be computed, the first rule refuses a solution exactly if none of its lines is strong, a strong
emission line of the catalogue falls exactly on the wavelength equal to the window size, and a strong emission line (not always
the same one) has a ratio under 0 or under that of a line of the solution, and a noise under 0 or under that of a line of the
solution. -/
theorem C126_rule01 (spc : Spc K) (rest : Cat K) (hr : LineCat.Ok rest) (lo hi w z : K) (s : List (Sol K)) (hlo : 0 < lo) (hhi : 0 < hi)
    (hs : ∀ x ∈ s, ∃ q, lineSnr spc w (x.rest.pos * (1 + z)) = .ok q)
    (hc : ∀ l ∈ rest, l.2.type = .emission → l.2.force = .strong → ∃ q, lineSnr spc w (l.2.pos * (1 + z)) = .ok q) :
    ∃ r, rule01 spc rest lo hi w z s = .ok r ∧ (r = false ↔
    (∀ x ∈ s, x.rest.force ≠ .strong) ∧ (∃ l ∈ rest, l.2.type = .emission ∧ l.2.force = .strong ∧ l.2.pos * (1 + z) = w) ∧
      ∃ l ∈ rest, l.2.type = .emission ∧ l.2.force = .strong ∧ ∃ q, lineSnr spc w (l.2.pos * (1 + z)) = .ok q ∧
        (ltQ q.1 (.num 0) = true ∨ ∃ x ∈ s, ∃ p, lineSnr spc w (x.rest.pos * (1 + z)) = .ok p ∧ ltQ q.1 p.1 = true) ∧
        (q.2 < 0 ∨ ∃ x ∈ s, ∃ p, lineSnr spc w (x.rest.pos * (1 + z)) = .ok p ∧ q.2 < p.2)) := by
  unfold rule01
  by_cases h1 : s.any (fun x => decide (x.rest.force = .strong)) = true
  · rw [if_pos h1]
    refine ⟨true, rfl, ?_⟩
    obtain ⟨x, hx, hd⟩ := List.any_eq_true.1 h1
    simp only [Bool.true_eq_false, false_iff]
    rintro ⟨h, _⟩
    exact h x hx (of_decide_eq_true hd)
  · rw [if_neg h1]
    have h1' : ∀ x ∈ s, x.rest.force ≠ .strong := by
      intro x hx e
      exact h1 (List.any_eq_true.2 ⟨x, hx, decide_eq_true e⟩)
    by_cases h2 : ((LineCat.filtered .emission .strong rest).any (fun l => inside lo hi w false (l.2.pos * (1 + z)))) = true
    · rw [if_pos h2]
      have hmem : ∀ l, l ∈ LineCat.filtered .emission .strong rest ↔ l ∈ rest ∧ l.2.type = .emission ∧ l.2.force = .strong := by
        intro l
        rw [(LineCat.C78_filtered .emission .strong rest hr).1, List.mem_filter]
        simp only [Bool.and_eq_true, Bool.or_eq_true, decide_eq_true_eq, reduceCtorEq, false_or]
        exact and_congr_right fun _ => and_congr eq_comm eq_comm
      obtain ⟨m, hm, ⟨⟨g1, g2, g3⟩, g4, g5, g6⟩, g7⟩ := weakMax_spec spc w z s (.num 0, 0) trivial hs
      obtain ⟨b, hb, e⟩ := strongOk_spec spc w z m (LineCat.filtered .emission .strong rest)
        (fun l hl => hc l ((hmem l).1 hl).1 ((hmem l).1 hl).2.1 ((hmem l).1 hl).2.2)
      rw [hm, Res.bind_ok, hb]
      refine ⟨b, rfl, e.trans ⟨?_, ?_⟩⟩
      · rintro ⟨l, hl, q, hq, hq1, hq2⟩
        obtain ⟨k1, k2, k3⟩ := (hmem l).1 hl
        refine ⟨h1', (strong_any rest hr lo hi w z hlo hhi).1 h2, l, k1, k2, k3, q, hq, ?_, ?_⟩
        · rcases g1 with g1 | ⟨x, hx, p, hp, e⟩
          · left; rw [g1] at hq1; exact hq1
          · right; exact ⟨x, hx, p, hp, e ▸ hq1⟩
        · rcases g4 with g4 | ⟨x, hx, p, hp, e⟩
          · left; rw [g4] at hq2; exact hq2
          · right; exact ⟨x, hx, p, hp, e ▸ hq2⟩
      · rintro ⟨_, _, l, k1, k2, k3, q, hq, hq1, hq2⟩
        refine ⟨l, (hmem l).2 ⟨k1, k2, k3⟩, q, hq, ?_, ?_⟩
        · rcases hq1 with hq1 | ⟨x, hx, p, hp, hq1⟩
          · exact ltQ_raise g7 hq1 g2
          · exact ltQ_raise g7 hq1 (g3 x hx p hp)
        · rcases hq2 with hq2 | ⟨x, hx, p, hp, hq2⟩
          · exact lt_of_lt_of_le hq2 g5
          · exact lt_of_lt_of_le hq2 (g6 x hx p hp)
    · rw [if_neg h2]
      refine ⟨true, rfl, ?_⟩
      simp only [Bool.true_eq_false, false_iff]
      rintro ⟨_, h, _⟩
      exact h2 ((strong_any rest hr lo hi w z hlo hhi).2 h)

/-- **C126**: the verdict is the sum of 1, 10 and 100 for the first, second and third rule that refuses the solution. -/
theorem C126_code (spc : Spc K) (rest : Cat K) (lo hi w z : K) (s : List (Sol K)) (c : ℤ)
    (h : check spc rest lo hi w z s = .ok c) :
    ∃ r1 : Bool, rule01 spc rest lo hi w z s = .ok r1 ∧
      (∃ a b d : ℤ, c = a + b + d ∧ (r1 = true → a = 0) ∧ (r1 = false → a = 1) ∧
        (rule02 rest lo hi w z s = true → b = 0) ∧ (rule02 rest lo hi w z s = false → b = 10) ∧
        (rule03 rest lo hi w z s = true → d = 0) ∧ (rule03 rest lo hi w z s = false → d = 100)) := by
  unfold check at h
  obtain ⟨r1, h1, h⟩ := Res.bind_eq_ok.1 h
  rw [Res.ok.injEq] at h
  refine ⟨r1, h1, _, _, _, h.symm, ?_, ?_, ?_, ?_, ?_, ?_⟩ <;> intro e <;> rw [e] <;> rfl

/-- **C126**: unless a line of the catalogue falls, at the redshift of a solution, exactly on the wavelength equal to the window
size, the rules refuse nothing and look at no flux: the result is unchanged. -/
theorem C126_no_effect (spc : Spc K) (rest : Cat K) (hr : LineCat.Ok rest) (lo hi w : K) (r : Lists K) (hlo : 0 < lo) (hhi : 0 < hi)
    (hw : ∀ s ∈ r.sets, ∀ l ∈ rest, l.2.pos * (1 + (s.map (·.z)).sum / (s.length : K)) ≠ w) :
    filterWithRules spc rest lo hi w r = .ok r := by
  have hc : ∀ s ∈ r.sets, check spc rest lo hi w (mean s) s = .ok 0 := by
    intro s hs
    have h1 : rule01 spc rest lo hi w (mean s) s = .ok true := by
      unfold rule01
      split
      · rfl
      · rw [if_neg]
        rw [strong_any rest hr lo hi w _ hlo hhi]
        rintro ⟨l, hl, _, _, e⟩
        exact hw s hs l hl e
    have hT : ∀ tag, ¬ TagOn rest tag (mean s) w := by
      rintro tag ⟨l, hl, e⟩
      exact hw s hs l (List.mem_of_find?_eq_some hl) e
    have h2 : rule02 rest lo hi w (mean s) s = true := by
      rw [← Bool.not_eq_false, C126_rule02_partial rest lo hi w _ s hlo hhi]
      exact fun h => hT _ h.2.2
    have h3 : rule03 rest lo hi w (mean s) s = true := by
      rw [← Bool.not_eq_false, C126_rule03 rest lo hi w _ s hlo hhi]
      exact fun h => hT _ h.2.2
    unfold check
    rw [h1, Res.bind_ok, h2, h3]
    rfl
  have hl : ∀ (l : List (List (Sol K))) (a : Lists K), (∀ s ∈ l, s ∈ r.sets) →
      filterLoop (fun set => check spc rest lo hi w (mean set) set) l a = .ok { a with sets := a.sets ++ l } := by
    intro l
    induction l with
    | nil => intro a _; simp [filterLoop]
    | cons s l ih =>
      intro a ha
      unfold filterLoop
      rw [hc s (ha s (by simp)), Res.bind_ok, if_pos le_rfl, ih _ (fun t ht => ha t (by simp [ht]))]
      simp
  unfold filterWithRules
  split
  · rfl
  · rw [hl _ _ (fun s hs => hs)]
    simp

/-! ## Examples -/

/-- A match of the detected line at `x` with a catalogue line. -/
def exSol (x : ℚ) (l : ℤ × Line ℚ) : Sol ℚ := ⟨⟨"d", x, .emission, .strong, 1, 1, .num 1, 1, 1, 1⟩, l.1, l.2, (x - l.2.pos) / l.2.pos⟩

/-- The doublet and a line. -/
def exRest : Cat ℚ :=
  [(0, ⟨0, "x", "Hbeta", "g", "v", .emission, .strong, 10, 1⟩), (1, ⟨1, "y", "[OIII]a", "g", "v", .emission, .strong, 20, 1⟩),
   (2, ⟨2, "z", "[OIII]b", "g", "v", .emission, .strong, 15, 1⟩)]

/-- A solution with `Hbeta` and `[OIII]b` at redshift 1, without `[OIII]a`. -/
def exSet : List (Sol ℚ) := [exSol 20 (0, ⟨0, "x", "Hbeta", "g", "v", .emission, .strong, 10, 1⟩),
  exSol 30 (2, ⟨2, "z", "[OIII]b", "g", "v", .emission, .strong, 15, 1⟩)]

/-- The best solution has two strong lines, and two steps of 1/10 fit in a width of 4/10. -/
example : bestRedshift exRest [[exSol 30 (2, ⟨2, "z", "[OIII]b", "g", "v", .emission, .strong, 15, 1⟩)], exSet] = some (1, 2) ∧
    bestMatchNum [exSet] = some (1, 2) ∧
    extended (fun l => l.insertionSort (· ≤ ·)) [exSet] 1 (1 / 10) (4 / 10) = (.ok [8 / 10, 9 / 10, 1, 11 / 10] : Res (List ℚ)) := by
  decide +kernel

/-- **C126** (the intended second rule fails): `[OIII]a` would be at 40, well inside the range from 5 to 100 however the window size 3 is
taken into account, and the solution without it is kept. With the window size 40 it is refused. -/
theorem C126_rule02_counterexample :
    rule02 exRest 5 100 3 1 exSet = true ∧ tagged "[OIII]b" exSet = 1 ∧ tagged "[OIII]a" exSet = 0 ∧
      (∃ l ∈ exRest, l.2.name = "[OIII]a" ∧ (5 : ℚ) + 3 ≤ l.2.pos * (1 + 1) ∧ l.2.pos * (1 + 1) ≤ 100 - 3) ∧
      rule02 exRest 5 100 40 1 exSet = false := by
  refine ⟨by decide +kernel, by decide +kernel, by decide +kernel, ⟨(1, ⟨1, "y", "[OIII]a", "g", "v", .emission, .strong, 20, 1⟩), ?_, rfl, ?_⟩,
    by decide +kernel⟩
  · simp [exRest]
  · norm_num

/-- The hypotheses of `C126_no_effect` and of the queries. -/
example : LineCat.Ok exRest ∧ (∀ s ∈ [exSet], ∀ l ∈ exRest, l.2.pos * (1 + (s.map (·.z)).sum / (s.length : ℚ)) ≠ 3) ∧
    (∀ s ∈ [exSet], 0 ≤ (s.map (·.z)).sum / (s.length : ℚ)) ∧ SortsNum (fun l : List ℚ => l.insertionSort (· ≤ ·)) := by
  refine ⟨⟨?_, ?_⟩, ?_, ?_, ⟨fun l => List.perm_insertionSort _ l, fun l => List.pairwise_insertionSort _ l⟩⟩
  · unfold LineCat.Keyed exRest
    simp
  · intro x hx
    simp only [exRest, List.mem_cons, List.not_mem_nil, or_false] at hx
    rcases hx with rfl | rfl | rfl <;> rfl
  · decide +kernel
  · decide +kernel

/-- The first rule on a spectrum: at redshift 1 the strong line falls on 10, the window size, with a ratio and a noise of 1, while
the weak line at 25 has 2 and 2: the solution with the weak line is refused, and it is moved to the refused ones. -/
example :
    let spc : Spc ℚ := ⟨[5, 10, 15, 20, 25, 30], [0, 2, 1, 3, 9, 5], []⟩
    let cat : Cat ℚ := [(0, ⟨0, "x", "S", "g", "v", .emission, .strong, 5, 1⟩), (1, ⟨1, "y", "W", "g", "v", .emission, .weak, 25 / 2, 1⟩)]
    let set : List (Sol ℚ) := [exSol 25 (1, ⟨1, "y", "W", "g", "v", .emission, .weak, 25 / 2, 1⟩)]
    lineSnr spc 10 10 = .ok (.num 1, 1) ∧ lineSnr spc 10 25 = .ok (.num 2, 2) ∧ rule01 spc cat 5 30 10 1 set = .ok false ∧
      (filterWithRules spc cat 5 30 10 ⟨[set], [], []⟩ >>= fun r => .ok (r.sets.length, r.bad.length, r.why)) = .ok (0, 1, [1]) := by
  decide +kernel

end LineMatch
end Amazed
