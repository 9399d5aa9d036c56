import Verif.Model.Strong
import Verif.Model.Loop
import Verif.Props.EltListProps
import Verif.Props.MedianContProps
import Mathlib.Algebra.BigOperators.Group.List.Basic
import Mathlib.Tactic.Linarith

set_option linter.unusedVariables false
set_option linter.unusedSectionVars false

/-! # C165: strong lines, strongest line and scale correction -/

namespace Amazed
namespace Strong

variable {K : Type} [Field K] [LinearOrder K] [IsStrictOrderedRing K]

/-- Specification: in a list of named amplitudes, the first of the greatest ones is positive and named `ha`. -/
def StrongestIs (ha : String) (l : List (String × K)) : Prop :=
  ∃ (pre : List (String × K)) (a : K) (post : List (String × K)), l = pre ++ (ha, a) :: post ∧ 0 < a ∧ (∀ q ∈ pre, q.2 < a) ∧ ∀ q ∈ post, q.2 ≤ a

/-- The named amplitudes of the emission lines of elements, without the NaN. -/
def emLines (es : List (El K)) : List (String × K) :=
  (es.flatMap (·.lines)).filterMap fun l => if l.1.em then l.2.map fun a => (l.1.name, a) else none

theorem split_unique {n n' : String} {a a' : K} {pre post pre' post' : List (String × K)} (h : pre ++ (n, a) :: post = pre' ++ (n', a') :: post')
    (h1 : ∀ q ∈ pre, q.2 < a) (h2 : ∀ q ∈ post, q.2 ≤ a) (h1' : ∀ q ∈ pre', q.2 < a') (h2' : ∀ q ∈ post', q.2 ≤ a') : n = n' ∧ a = a' := by
  rcases List.append_eq_append_iff.1 h with ⟨m, e1, e2⟩ | ⟨m, e1, e2⟩
  · cases m with
    | nil => simp at e2; exact ⟨e2.1.1, e2.1.2⟩
    | cons x m =>
      simp only [List.cons_append, List.cons.injEq] at e2
      have := h1' (n, a) (by rw [e1, ← e2.1]; simp)
      have := h2 (n', a') (by rw [e2.2]; simp)
      exact absurd this (not_le.2 ‹_›)
  · cases m with
    | nil => simp at e2; exact ⟨e2.1.1.symm, e2.1.2.symm⟩
    | cons x m =>
      simp only [List.cons_append, List.cons.injEq] at e2
      have := h1 (n', a') (by rw [e1, ← e2.1]; simp)
      have := h2' (n, a) (by rw [e2.2]; simp)
      exact absurd this (not_le.2 ‹_›)

/-- The state of the search after a list. -/
def Inv (l : List (String × K)) (b : Best K) : Prop :=
  ((∀ q ∈ l, q.2 ≤ 0) ∧ pos b.1 = false) ∨ ∃ (pre : List (String × K)) (n : String) (a : K) (post : List (String × K)),
    l = pre ++ (n, a) :: post ∧ 0 < a ∧ (∀ q ∈ pre, q.2 < a) ∧ (∀ q ∈ post, q.2 ≤ a) ∧ b = (some a, n)

theorem inv_isHa {ha : String} {l : List (String × K)} {b : Best K} (h : Inv l b) : isHa ha b = true ↔ StrongestIs ha l := by
  rcases h with ⟨h, hb⟩ | ⟨pre, n, a, post, rfl, h0, h1, h2, rfl⟩
  · constructor
    · intro hh; simp [isHa, hb] at hh
    · rintro ⟨pre, a, post, rfl, h0, -, -⟩
      have := h (ha, a) (by simp)
      exact absurd this (not_le.2 h0)
  · constructor
    · intro hh
      simp [isHa] at hh
      exact ⟨pre, a, post, by rw [hh.2], h0, h1, h2⟩
    · rintro ⟨pre', a', post', e, h0', h1', h2'⟩
      have := split_unique e h1 h2 h1' h2'
      simp [isHa, pos, h0, this.1]

theorem inv_step {l : List (String × K)} {b b' : Best K} (h : Inv l b) (n : String) (a : K)
    (hp : 0 < a → b' = if above a b.1 = true then (some a, n) else b) (hn : a ≤ 0 → b' = b ∨ (above a b.1 = true ∧ b' = (some a, n))) : Inv (l ++ [(n, a)]) b' := by
  rcases h with ⟨h, hb⟩ | ⟨pre, m, c, post, rfl, h0, h1, h2, rfl⟩
  · rcases le_or_gt a 0 with ha | ha
    · left
      refine ⟨fun q hq => ?_, ?_⟩
      · rcases List.mem_append.1 hq with hq | hq
        · exact h q hq
        · rw [List.mem_singleton.1 hq]; exact ha
      · rcases hn ha with rfl | ⟨-, rfl⟩
        · exact hb
        · simp [pos, ha]
    · right
      refine ⟨l, n, a, [], rfl, ha, fun q hq => lt_of_le_of_lt (h q hq) ha, by simp, ?_⟩
      have : above a b.1 = true := by
        cases e : b.1 with
        | none => rfl
        | some c =>
          rw [e] at hb
          simp [pos] at hb
          simp [above]; exact lt_of_le_of_lt hb ha
      rw [hp ha, if_pos this]
  · right
    rcases le_or_gt a c with ha | ha
    · have hab : above a (some c) = false := by simp [above, ha]
      refine ⟨pre, m, c, post ++ [(n, a)], by simp, h0, h1, fun q hq => ?_, ?_⟩
      · rcases List.mem_append.1 hq with hq | hq
        · exact h2 q hq
        · rw [List.mem_singleton.1 hq]; exact ha
      · rcases le_or_gt a 0 with hz | hz
        · rcases hn hz with r | ⟨r, -⟩
          · exact r
          · rw [hab] at r; simp at r
        · rw [hp hz, hab]; simp
    · have hab : above a (some c) = true := by simp [above, ha]
      refine ⟨pre ++ (m, c) :: post, n, a, [], rfl, lt_trans h0 ha, fun q hq => ?_, by simp, by rw [hp (lt_trans h0 ha), if_pos hab]⟩
      rcases List.mem_append.1 hq with hq | hq
      · exact lt_trans (h1 q hq) ha
      · rcases List.mem_cons.1 hq with rfl | hq
        · exact ha
        · exact lt_of_le_of_lt (h2 q hq) ha

theorem lines_inv : ∀ (ls : List (Ln × Option K)) (l : List (String × K)) (b : Best K), Inv l b →
    Inv (l ++ ls.filterMap fun l => if l.1.em then l.2.map fun a => (l.1.name, a) else none) (ls.foldl stepModel b) := by
  intro ls
  induction ls with
  | nil => intro l b h; simpa using h
  | cons x ls ih =>
    intro l b h
    rw [List.foldl_cons]
    obtain ⟨⟨em, st, nm⟩, am⟩ := x
    cases em with
    | false =>
      have := ih l b h
      simpa [stepModel] using this
    | true =>
      cases am with
      | none =>
        have := ih l b h
        simpa [stepModel] using this
      | some a =>
        have := ih (l ++ [(nm, a)]) (stepModel b (⟨true, st, nm⟩, some a)) (inv_step h nm a
          (fun ha => by simp [stepModel, ha]) (fun ha => .inl (by simp [stepModel, not_lt.2 ha])))
        simpa using this

theorem els_inv : ∀ (es : List (El K)) (l : List (String × K)) (b : Best K), Inv l b →
    Inv (l ++ emLines es) (es.foldl (fun b e => e.lines.foldl stepModel b) b) := by
  intro es
  induction es with
  | nil => intro l b h; simpa [emLines] using h
  | cons e es ih =>
    intro l b h
    rw [List.foldl_cons]
    have := ih _ _ (lines_inv e.lines l b h)
    simpa [emLines, List.filterMap_append] using this

/-- The valid elements: those of the list that are in range and whose index is not disabled. -/
theorem C165_valid (es : List (El K)) (disabled : List Nat) (e : El K) : e ∈ valid es disabled ↔ ∃ i : Nat, es[i]? = some e ∧ e.outside = false ∧ i ∉ disabled := by
  simp only [valid, List.mem_map, List.mem_filter]
  constructor
  · rintro ⟨⟨e', i⟩, ⟨h1, h2⟩, rfl⟩
    rw [List.mem_zipIdx_iff_getElem?] at h1
    simp at h2
    exact ⟨i, h1, h2.1, h2.2⟩
  · rintro ⟨i, h1, h2, h3⟩
    refine ⟨(e, i), ⟨?_, ?_⟩, rfl⟩
    · rw [List.mem_zipIdx_iff_getElem?]; exact h1
    · simp [h2, h3]

/-- **C165** A model has a strong emission line when some element that is in range and enabled has a strong emission line of positive amplitude. -/
theorem C165_present (es : List (El K)) (disabled : List Nat) : strongPresent es disabled = true ↔
    ∃ (i : Nat) (e : El K), es[i]? = some e ∧ e.outside = false ∧ i ∉ disabled ∧ ∃ l ∈ e.lines, l.1.em = true ∧ l.1.strong = true ∧ ∃ a : K, l.2 = some a ∧ 0 < a := by
  have hp : ∀ x : Option K, pos x = true ↔ ∃ a : K, x = some a ∧ 0 < a := by
    intro x; cases x <;> simp [pos]
  simp only [strongPresent, List.any_eq_true, Bool.and_eq_true, C165_valid, hp]
  constructor
  · rintro ⟨e, ⟨i, h1, h2, h3⟩, l, hl, ⟨h4, h5⟩, h6⟩
    exact ⟨i, e, h1, h2, h3, l, hl, h4, h5, h6⟩
  · rintro ⟨i, e, h1, h2, h3, l, hl, h4, h5, h6⟩
    exact ⟨e, ⟨i, h1, h2, h3⟩, l, hl, ⟨h4, h5⟩, h6⟩

/-- **C165** Hα is the strongest line of the model exactly when the first of the greatest amplitudes of the emission lines of the valid elements is positive and that of Hα. -/
theorem C165_ha (ha : String) (es : List (El K)) (disabled : List Nat) : haStrongest ha es disabled = true ↔ StrongestIs ha (emLines (valid es disabled)) := by
  have := els_inv (valid es disabled) [] ((none : Option K), "") (.inl ⟨by simp, rfl⟩)
  exact inv_isHa (by simpa using this)

/-- **C165** In particular every emission line of the valid elements is then at most as strong as a line named Hα. -/
theorem C165_ha_max {ha : String} {es : List (El K)} {disabled : List Nat} (h : haStrongest ha es disabled = true) :
    ∃ a : K, 0 < a ∧ (ha, a) ∈ emLines (valid es disabled) ∧ ∀ q ∈ emLines (valid es disabled), q.2 ≤ a := by
  obtain ⟨pre, a, post, e, h0, h1, h2⟩ := (C165_ha ha es disabled).1 h
  refine ⟨a, h0, by rw [e]; simp, fun q hq => ?_⟩
  rw [e] at hq
  rcases List.mem_append.1 hq with hq | hq
  · exact (h1 q hq).le
  · rcases List.mem_cons.1 hq with rfl | hq
    · exact le_refl _
    · exact h2 q hq

/-! ## Scale correction -/

/-- The contribution of an element. -/
def scaleOf (lg : K → K) (e : El K) : K := if e.outside = false ∧ 0 < e.mtm then lg e.mtm else 0

theorem addScale_eq (lg : K → K) (e : El K) (s : K) : addScale lg e s = s + scaleOf lg e := by
  unfold addScale scaleOf
  cases e.outside <;> by_cases h : 0 < e.mtm <;> simp [h]

/-- **C165** The correction is the sum of the logarithms of the norms of the elements that are in range and of positive norm. -/
theorem C165_scale (lg : K → K) (es : List (El K)) : scaleMarg lg es none = .ok ((es.map (scaleOf lg)).sum) := by
  have : ∀ (l : List (El K)) (s : K), l.foldl (fun s e => addScale lg e s) s = s + (l.map (scaleOf lg)).sum := by
    intro l
    induction l with
    | nil => intro s; simp
    | cons e l ih => intro s; rw [List.foldl_cons, ih, addScale_eq]; simp; ring
  simp [scaleMarg, this]

/-- **C165** The correction of one element is its contribution only. -/
theorem C165_scale_one (lg : K → K) (es : List (El K)) (i : Nat) (e : El K) (h : es[i]? = some e) : scaleMarg lg es (some i) = .ok (scaleOf lg e) := by
  show (Res.at_ es i >>= fun e => Res.ok (addScale lg e 0)) = _
  rw [Res.at_eq_ok.2 h, Res.bind_ok, addScale_eq, zero_add]

/-- **C165** With several spectra the corrections add up: an element in range in two of them is counted twice. -/
theorem C165_scale_all (lg : K → K) (ess : List (List (El K))) : scaleMargAll lg ess none = .ok ((ess.map fun es => (es.map (scaleOf lg)).sum).sum) := by
  have : ∀ (l : List (List (El K))) (s : K), EltList.foldL (fun es s => scaleMarg lg es none >>= fun x => .ok (s + x)) l s = .ok (s + (l.map fun es => (es.map (scaleOf lg)).sum).sum) := by
    intro l
    induction l with
    | nil => intro s; simp [EltList.foldL]
    | cons e l ih =>
      intro s
      unfold EltList.foldL
      rw [C165_scale, Res.bind_ok, Res.bind_ok, ih]
      simp; ring
  simp [scaleMargAll, this]

/-! ## Solutions -/

/-- `x / y ≥ t` for numbers that may be NaN, as in IEEE arithmetic. -/
def Ratio (x y : Option K) (t : K) : Prop := ∃ a b : K, x = some a ∧ y = some b ∧ ((b = 0 ∧ 0 < a) ∨ (b ≠ 0 ∧ t ≤ a / b))

theorem quotGe_iff (x y : Option K) (t : K) : quotGe x y t = true ↔ Ratio x y t := by
  cases x with
  | none => simp [quotGe, Ratio]
  | some a =>
    cases y with
    | none => simp [quotGe, Ratio]
    | some b =>
      by_cases h : b = 0 <;> simp [quotGe, Ratio, h]

/-- A line that is counted: strong, in emission, of positive uncertainty, whose ratios to the uncertainty and to the residual are over the cuts. -/
def Over (cat : Nat → Option Ln) (snr fit : K) (s : SolLine K) : Prop :=
  ∃ l : Ln, cat s.id = some l ∧ l.strong = true ∧ l.em = true ∧ (∃ u : K, s.unc = some u ∧ 0 < u) ∧ Ratio s.amp s.unc snr ∧ Ratio s.amp s.rms fit

theorem nonPos_ratio {x y : Option K} {t : K} : (nonPos y = false ∧ Ratio x y t) ↔ ((∃ u : K, y = some u ∧ 0 < u) ∧ Ratio x y t) := by
  constructor
  · rintro ⟨h, a, b, hx, rfl, hr⟩
    refine ⟨⟨b, rfl, ?_⟩, a, b, hx, rfl, hr⟩
    simpa [nonPos] using h
  · rintro ⟨⟨u, rfl, hu⟩, h⟩
    refine ⟨?_, h⟩
    simpa [nonPos] using hu

theorem overStep_eq (cat : Nat → Option Ln) (snr fit : K) (s : SolLine K) (found : List Nat) {l : Ln} (hl : cat s.id = some l) :
    overStep cat snr fit s found = .ok (open Classical in if s.elt ∉ found ∧ Over cat snr fit s then found ++ [s.elt] else found) := by
  classical
  unfold overStep
  by_cases hc : s.elt ∈ found
  · simp [hc]
  · have hO : Over cat snr fit s ↔ (l.strong = true ∧ l.em = true ∧ nonPos s.unc = false ∧ quotGe s.amp s.unc snr = true ∧ quotGe s.amp s.rms fit = true) := by
      simp only [quotGe_iff]
      constructor
      · rintro ⟨l', hl', h1, h2, h3, h4, h5⟩
        rw [hl] at hl'
        cases hl'
        exact ⟨h1, h2, (nonPos_ratio.2 ⟨h3, h4⟩).1, h4, h5⟩
      · rintro ⟨h1, h2, h3, h4, h5⟩
        exact ⟨l, hl, h1, h2, (nonPos_ratio.1 ⟨h3, h4⟩).1, h4, h5⟩
    have : line cat s.id = .ok l := by simp [line, hl]
    rw [if_neg (by simpa using hc), this, Res.bind_ok]
    simp only [hO, hc, not_false_eq_true, true_and]
    cases l.strong <;> cases l.em <;> cases nonPos s.unc <;> cases quotGe s.amp s.unc snr <;> cases quotGe s.amp s.rms fit <;> simp

/-- **C165** The number of lines over the cuts is the number of distinct elements that have such a line: `S` is that set. Several lines of an element count once. -/
theorem C165_over (cat : Nat → Option Ln) (snr fit : K) (sol : List (SolLine K)) (hc : ∀ s ∈ sol, (cat s.id).isSome = true) :
    ∃ S : Finset Nat, nOver cat snr fit sol = .ok S.card ∧ ∀ i, i ∈ S ↔ ∃ s ∈ sol, s.elt = i ∧ Over cat snr fit s := by
  classical
  obtain ⟨l, h1, h2, h3⟩ := EltList.foldL_inv (f := overStep cat snr fit)
    (fun pre l => l.Nodup ∧ ∀ i, i ∈ l ↔ ∃ s ∈ pre, s.elt = i ∧ Over cat snr fit s) sol [] [] (by simp) (by
      rintro pre s l hs ⟨hn, hm⟩
      obtain ⟨x, hx⟩ := Option.isSome_iff_exists.1 (hc s hs)
      refine ⟨_, overStep_eq cat snr fit s l hx, ?_⟩
      by_cases hh : s.elt ∉ l ∧ Over cat snr fit s
      · rw [if_pos hh]
        refine ⟨List.nodup_append.2 ⟨hn, by simp, ?_⟩, fun i => ?_⟩
        · intro a ha b hb e
          rw [List.mem_singleton.1 hb] at e
          exact hh.1 (e ▸ ha)
        · rw [List.mem_append, hm i]
          constructor
          · rintro (⟨t, ht, r⟩ | r)
            · exact ⟨t, by simp [ht], r⟩
            · exact ⟨s, by simp, (List.mem_singleton.1 r).symm, hh.2⟩
          · rintro ⟨t, ht, r⟩
            rcases List.mem_append.1 ht with ht | ht
            · exact .inl ⟨t, ht, r⟩
            · rw [List.mem_singleton.1 ht] at r
              exact .inr (by rw [← r.1]; simp)
      · rw [if_neg hh]
        refine ⟨hn, fun i => ?_⟩
        rw [hm i]
        constructor
        · rintro ⟨t, ht, r⟩; exact ⟨t, by simp [ht], r⟩
        · rintro ⟨t, ht, r⟩
          rcases List.mem_append.1 ht with ht | ht
          · exact ⟨t, ht, r⟩
          · rw [List.mem_singleton.1 ht] at r
            have : s.elt ∈ l := by
              by_contra hc
              exact hh ⟨hc, r.2⟩
            rw [r.1] at this
            exact (hm i).1 this)
  refine ⟨l.toFinset, ?_, fun i => ?_⟩
  · show (EltList.foldL (overStep cat snr fit) sol [] >>= fun l => Res.ok l.length) = _
    rw [h1, Res.bind_ok, List.toFinset_card_of_nodup h2]
  · rw [List.mem_toFinset, h3 i]; simp

/-- A line asked for by the filter: strong, and in emission for 1, not in emission for 2, any type otherwise. -/
def Wanted (filter : ℤ) (l : Ln) : Prop := l.strong = true ∧ (filter = 1 → l.em = true) ∧ (filter = 2 → l.em = false)

theorem noMatch_iff (filter : ℤ) (l : Ln) : noMatch filter l = false ↔ Wanted filter l := by
  unfold noMatch Wanted
  cases l.strong <;> cases l.em <;> by_cases h1 : filter = 1 <;> by_cases h2 : filter = 2 <;> simp [h1, h2]

theorem present_iff (cat : Nat → Option Ln) (filter : ℤ) : ∀ sol : List (SolLine K), (∀ s ∈ sol, (cat s.id).isSome = true) →
    ∃ b : Bool, present cat filter sol = .ok b ∧ (b = true ↔ ∃ s ∈ sol, ∃ l : Ln, cat s.id = some l ∧ Wanted filter l ∧ s.out = false ∧ ∃ a : K, s.amp = some a ∧ 0 < a) := by
  intro sol
  induction sol with
  | nil => intro _; exact ⟨false, rfl, by simp⟩
  | cons s ss ih =>
    intro hc
    obtain ⟨l, hl⟩ := Option.isSome_iff_exists.1 (hc s (by simp))
    obtain ⟨b, hb1, hb2⟩ := ih fun t ht => hc t (by simp [ht])
    have hline : line cat s.id = .ok l := by simp [line, hl]
    have hv : lineValid s = true ↔ s.out = false ∧ ∃ a : K, s.amp = some a ∧ 0 < a := by
      unfold lineValid
      cases s.out <;> cases s.amp <;> simp [pos]
    show ∃ b, (line cat s.id >>= fun l => if noMatch filter l then present cat filter ss else if lineValid s then .ok true else present cat filter ss) = .ok b ∧ _
    rw [hline, Res.bind_ok]
    by_cases hm : noMatch filter l = true
    · rw [if_pos hm]
      refine ⟨b, hb1, hb2.trans ⟨fun ⟨t, ht, r⟩ => ⟨t, by simp [ht], r⟩, ?_⟩⟩
      rintro ⟨t, ht, l', hl', hw, r⟩
      rcases List.mem_cons.1 ht with rfl | ht
      · rw [hl] at hl'; cases hl'
        rw [(noMatch_iff filter l).2 hw] at hm; simp at hm
      · exact ⟨t, ht, l', hl', hw, r⟩
    · rw [if_neg hm]
      have hw : Wanted filter l := (noMatch_iff filter l).1 (by simpa using hm)
      by_cases hk : lineValid s = true
      · rw [if_pos hk]
        exact ⟨true, rfl, by simp only [true_iff]; exact ⟨s, by simp, l, hl, hw, (hv.1 hk).1, (hv.1 hk).2⟩⟩
      · rw [if_neg hk]
        refine ⟨b, hb1, hb2.trans ⟨fun ⟨t, ht, r⟩ => ⟨t, by simp [ht], r⟩, ?_⟩⟩
        rintro ⟨t, ht, l', hl', hw', r⟩
        rcases List.mem_cons.1 ht with rfl | ht
        · exact absurd (hv.2 r) hk
        · exact ⟨t, ht, l', hl', hw', r⟩

/-- **C165** For each solution, the flag tells whether it has a strong line of the wanted type, in range and of positive amplitude. -/
theorem C165_strong_lines (cat : Nat → Option Ln) (filter : ℤ) (sols : List (List (SolLine K))) (hc : ∀ sol ∈ sols, ∀ s ∈ sol, (cat s.id).isSome = true) :
    ∃ bs : List Bool, strongLines cat filter sols = .ok bs ∧ bs.length = sols.length ∧ ∀ (i : Nat) (sol : List (SolLine K)), sols[i]? = some sol →
      ∃ b : Bool, bs[i]? = some b ∧ (b = true ↔ ∃ s ∈ sol, ∃ l : Ln, cat s.id = some l ∧ Wanted filter l ∧ s.out = false ∧ ∃ a : K, s.amp = some a ∧ 0 < a) := by
  obtain ⟨bs, hbs, -, -⟩ := MedCont.tab_total (P := fun _ => True) (g := fun i => Res.at_ sols i >>= present cat filter) (n := sols.length) (h := by
    intro i hi
    rw [Res.at_of_lt hi, Res.bind_ok]
    obtain ⟨b, h1, -⟩ := present_iff cat filter sols[i] (hc _ (List.getElem_mem hi))
    exact ⟨b, h1, trivial⟩)
  refine ⟨bs, hbs, Res.tab_length _ hbs, fun i sol hs => ?_⟩
  have hi : i < sols.length := by by_contra h; rw [List.getElem?_eq_none (not_lt.1 h)] at hs; simp at hs
  obtain ⟨b, h1, h2⟩ := Res.tab_get _ hbs i hi
  rw [Res.at_eq_ok.2 hs, Res.bind_ok] at h2
  obtain ⟨b', h3, h4⟩ := present_iff cat filter sol (hc _ (List.mem_of_getElem? hs))
  rw [h3] at h2
  cases h2
  exact ⟨b, h1, h4⟩

/-- The named amplitudes of the emission lines of a solution that are in range, without the NaN. -/
def solLines (cat : Nat → Option Ln) (sol : List (SolLine K)) : List (String × K) :=
  sol.filterMap fun s => (cat s.id).bind fun l => if l.em = true ∧ s.out = false then s.amp.map fun a => (l.name, a) else none

theorem sol_inv (cat : Nat → Option Ln) (undef : String) (sol : List (SolLine K)) (hc : ∀ s ∈ sol, (cat s.id).isSome = true) :
    ∃ b : Best K, EltList.foldL (stepSol cat) sol ((none : Option K), undef) = .ok b ∧ Inv (solLines cat sol) b := by
  have := EltList.foldL_inv (f := stepSol cat) (fun pre (b : Best K) => Inv (solLines cat pre) b) sol [] ((none : Option K), undef)
    (.inl ⟨by simp [solLines], rfl⟩) (by
    intro pre s b hs hI
    obtain ⟨l, hl⟩ := Option.isSome_iff_exists.1 (hc s hs)
    have hline : line cat s.id = .ok l := by simp [line, hl]
    unfold stepSol
    rw [hline, Res.bind_ok]
    have hap : solLines cat (pre ++ [s]) = solLines cat pre ++ solLines cat [s] := by simp [solLines, List.filterMap_append]
    rw [hap]
    by_cases h1 : l.em = false ∨ s.out = true
    · rw [if_pos h1]
      refine ⟨b, rfl, ?_⟩
      have : solLines cat [s] = [] := by
        rcases h1 with h | h <;> simp [solLines, hl, h]
      rw [this, List.append_nil]; exact hI
    · rw [if_neg h1]
      simp only [not_or, Bool.not_eq_false, Bool.not_eq_true] at h1
      cases ha : s.amp with
      | none =>
        refine ⟨b, rfl, ?_⟩
        have : solLines cat [s] = [] := by simp [solLines, hl, h1, ha]
        rw [this, List.append_nil]; exact hI
      | some a =>
        have e : solLines cat [s] = [(l.name, a)] := by simp [solLines, hl, h1, ha]
        rw [e]
        refine ⟨if above a b.1 = true then (some a, l.name) else b, ?_, inv_step hI _ _ (fun _ => rfl) ?_⟩
        · dsimp only
          split_ifs <;> rfl
        · intro _
          by_cases hab : above a b.1 = true
          · exact .inr ⟨hab, by rw [if_pos hab]⟩
          · exact .inl (by rw [if_neg hab]))
  simpa using this

/-- **C165** For each solution, the flag tells whether the first of the greatest amplitudes of its emission lines in range is positive and that of Hα. -/
theorem C165_strongest (ha undef : String) (cat : Nat → Option Ln) (sols : List (List (SolLine K))) (hc : ∀ sol ∈ sols, ∀ s ∈ sol, (cat s.id).isSome = true) :
    ∃ bs : List Bool, strongestIsHa ha undef cat sols = .ok bs ∧ bs.length = sols.length ∧ ∀ (i : Nat) (sol : List (SolLine K)), sols[i]? = some sol →
      ∃ b : Bool, bs[i]? = some b ∧ (b = true ↔ StrongestIs ha (solLines cat sol)) := by
  have key : ∀ sol ∈ sols, ∃ b : Bool, (EltList.foldL (stepSol cat) sol ((none : Option K), undef) >>= fun b => Res.ok (isHa ha b)) = .ok b ∧
      (b = true ↔ StrongestIs ha (solLines cat sol)) := by
    intro sol hsol
    obtain ⟨b, h1, h2⟩ := sol_inv cat undef sol (hc sol hsol)
    exact ⟨isHa ha b, by rw [h1, Res.bind_ok], inv_isHa h2⟩
  unfold strongestIsHa
  obtain ⟨bs, hbs, -, -⟩ := MedCont.tab_total (P := fun _ => True) (g := fun i => Res.at_ sols i >>= fun sol => EltList.foldL (stepSol cat) sol ((none : Option K), undef) >>= fun b => Res.ok (isHa ha b))
    (n := sols.length) (h := by
    intro i hi
    rw [Res.at_of_lt hi, Res.bind_ok]
    obtain ⟨b, h1, -⟩ := key sols[i] (List.getElem_mem hi)
    exact ⟨b, h1, trivial⟩)
  refine ⟨bs, hbs, Res.tab_length _ hbs, fun i sol hs => ?_⟩
  have hi : i < sols.length := by by_contra h; rw [List.getElem?_eq_none (not_lt.1 h)] at hs; simp at hs
  obtain ⟨b, h1, h2⟩ := Res.tab_get _ hbs i hi
  rw [Res.at_eq_ok.2 hs, Res.bind_ok] at h2
  obtain ⟨b', h3, h4⟩ := key sol (List.mem_of_getElem? hs)
  rw [h3] at h2
  cases h2
  exact ⟨b, h1, h4⟩

/-! ## Extreme merits -/

/-- **C165** The least merit of the first `n` is one of them and at most all of them. -/
theorem C165_min (n : Nat) (chi : List K) (hn : 0 < n) (hl : n ≤ chi.length) :
    ∃ m : K, minChi n chi = .ok (some m) ∧ (∃ i, i < n ∧ chi[i]? = some m) ∧ ∀ (i : Nat) (x : K), i < n → chi[i]? = some x → m ≤ x := by
  have H := Res.foldN_inv (f := fun i (m : Option K) => Res.at_ chi i >>= fun x => .ok (match m with
    | none => some x
    | some y => if x < y then some x else some y))
    (fun k (m : Option K) => (k = 0 ∧ m = none) ∨ ∃ v : K, m = some v ∧ (∃ i, i < k ∧ chi[i]? = some v) ∧ ∀ (i : Nat) (x : K), i < k → chi[i]? = some x → v ≤ x)
    n 0 none (.inl ⟨rfl, rfl⟩) (by
    intro k m hk0 hk hI
    have hk' : k < chi.length := by omega
    rw [Res.at_of_lt hk', Res.bind_ok]
    refine ⟨_, rfl, .inr ?_⟩
    have hkk : chi[k]? = some chi[k] := List.getElem?_eq_getElem hk'
    rcases hI with ⟨rfl, rfl⟩ | ⟨v, rfl, ⟨i, hi, hv⟩, hm⟩
    · refine ⟨_, rfl, ⟨0, by omega, hkk⟩, fun i x hi hx => ?_⟩
      have : i = 0 := by omega
      subst this
      rw [hkk] at hx; cases hx; exact le_refl _
    · by_cases h : chi[k] < v
      · refine ⟨chi[k], by simp [h], ⟨k, by omega, hkk⟩, fun j x hj hx => ?_⟩
        rcases Nat.lt_succ_iff_lt_or_eq.1 hj with hj | rfl
        · exact le_trans h.le (hm j x hj hx)
        · rw [hkk] at hx; cases hx; exact le_refl _
      · refine ⟨v, by simp [h], ⟨i, by omega, hv⟩, fun j x hj hx => ?_⟩
        rcases Nat.lt_succ_iff_lt_or_eq.1 hj with hj | rfl
        · exact hm j x hj hx
        · rw [hkk] at hx; cases hx; exact not_lt.1 h)
  obtain ⟨m, h1, h2⟩ := H
  rw [Nat.zero_add] at h2
  rcases h2 with ⟨h, -⟩ | ⟨v, rfl, h2, h3⟩
  · omega
  · exact ⟨v, h1, h2, h3⟩

/-- **C165** The greatest merit of the first `n` is one of them and at least all of them. -/
theorem C165_max (n : Nat) (chi : List K) (hn : 0 < n) (hl : n ≤ chi.length) :
    ∃ m : K, maxChi n chi = .ok (some m) ∧ (∃ i, i < n ∧ chi[i]? = some m) ∧ ∀ (i : Nat) (x : K), i < n → chi[i]? = some x → x ≤ m := by
  have H := Res.foldN_inv (f := fun i (m : Option K) => Res.at_ chi i >>= fun x => .ok (match m with
    | none => some x
    | some y => if y < x then some x else some y))
    (fun k (m : Option K) => (k = 0 ∧ m = none) ∨ ∃ v : K, m = some v ∧ (∃ i, i < k ∧ chi[i]? = some v) ∧ ∀ (i : Nat) (x : K), i < k → chi[i]? = some x → x ≤ v)
    n 0 none (.inl ⟨rfl, rfl⟩) (by
    intro k m hk0 hk hI
    have hk' : k < chi.length := by omega
    rw [Res.at_of_lt hk', Res.bind_ok]
    refine ⟨_, rfl, .inr ?_⟩
    have hkk : chi[k]? = some chi[k] := List.getElem?_eq_getElem hk'
    rcases hI with ⟨rfl, rfl⟩ | ⟨v, rfl, ⟨i, hi, hv⟩, hm⟩
    · refine ⟨_, rfl, ⟨0, by omega, hkk⟩, fun i x hi hx => ?_⟩
      have : i = 0 := by omega
      subst this
      rw [hkk] at hx; cases hx; exact le_refl _
    · by_cases h : v < chi[k]
      · refine ⟨chi[k], by simp [h], ⟨k, by omega, hkk⟩, fun j x hj hx => ?_⟩
        rcases Nat.lt_succ_iff_lt_or_eq.1 hj with hj | rfl
        · exact le_trans (hm j x hj hx) h.le
        · rw [hkk] at hx; cases hx; exact le_refl _
      · refine ⟨v, by simp [h], ⟨i, by omega, hv⟩, fun j x hj hx => ?_⟩
        rcases Nat.lt_succ_iff_lt_or_eq.1 hj with hj | rfl
        · exact hm j x hj hx
        · rw [hkk] at hx; cases hx; exact not_lt.1 h)
  obtain ⟨m, h1, h2⟩ := H
  rw [Nat.zero_add] at h2
  rcases h2 with ⟨h, -⟩ | ⟨v, rfl, h2, h3⟩
  · omega
  · exact ⟨v, h1, h2, h3⟩

/-! ## A case -/

def exHa : Ln := ⟨true, true, "Halpha"⟩
def exHb : Ln := ⟨true, true, "Hbeta"⟩
def exEls : List (El ℚ) := [⟨false, 2, [(exHb, some 3)]⟩, ⟨false, 4, [(exHa, some 5), (exHb, none)]⟩, ⟨true, 1, [(exHb, some 9)]⟩]
def exCat : Nat → Option Ln := fun i => if i = 0 then some exHa else if i = 1 then some exHb else none
def exSol : List (SolLine ℚ) := [⟨1, 0, some 3, some 1, some 1, false⟩, ⟨0, 0, some 5, some 1, some 1, false⟩, ⟨0, 1, some 4, some 0, some 1, false⟩]

example : haStrongest "Halpha" exEls [] = true := by decide +kernel
example : haStrongest "Halpha" exEls [1] = false := by decide +kernel
example : strongPresent exEls [] = true := by decide +kernel
example : nOver exCat 2 1 exSol = .ok 1 := by decide +kernel
example : strongestIsHa "Halpha" "undefined" exCat [exSol, []] = .ok [true, false] := by decide +kernel
example : strongLines exCat 2 [exSol] = .ok [false] := by decide +kernel
example : ∀ s ∈ exSol, (exCat s.id).isSome = true := by decide +kernel

end Strong
end Amazed
