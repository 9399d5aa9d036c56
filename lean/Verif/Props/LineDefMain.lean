import Verif.Props.LineDefProps

set_option linter.unusedVariables false
set_option linter.unusedSectionVars false
set_option linter.unusedSimpArgs false

/-! # What a user sees of the catalogues (C187-C189) -/

namespace Amazed
namespace LineDef
open Amp (LType Force)
open LineCat (mapPut mapFind string2Type string2Force Keyed mapPut_keyed mapFind_mem mapFind_put mapPut_append mapPut_keys)
open Lya (AsymP)

variable {K : Type} [Field K] [LinearOrder K]

/-- A state of the program that a history of calls reaches. -/
def Reached (w : World K) : Prop := ∃ cs es, (World.empty : World K).run cs = some (w, es)

/-- The call ended, by returning or by an exception, in `w'`. -/
def Ended (o : Out (World K)) (w' : World K) : Prop := o = .done w' ∨ ∃ e, o = .thrown e w'

/-- The catalogue that the call changes, if any. -/
def target : Call K → Option Nat
  | .new _ => none
  | .add k _ => some k
  | .copy _ => none
  | .ratio _ => none
  | .filter _ _ _ => none
  | .amp k _ _ => some k
  | .asym k _ _ => some k
  | .conv k _ => some k

theorem reached_sim {w : World K} (h : Reached w) : ∃ s, Sim w s := by
  obtain ⟨cs, es, h⟩ := h
  have := run_sim cs (empty_sim (K := K))
  cases hs : specRun [] cs with
  | none => rw [hs] at this; simp only at this; rw [this] at h; cases h
  | some r =>
    rw [hs] at this
    obtain ⟨w', e, sm⟩ := this
    rw [h] at e
    cases e
    exact ⟨_, sm⟩

theorem Sim.view {w : World K} {s : List (VCat K)} (h : Sim w s) {k : Nat} {c : Cat K (Option Nat)} (hc : w.cats[k]? = some c) : ∃ v, s[k]? = some v ∧ view w.heap c = .ok v := by
  obtain ⟨v, hv, hn, g⟩ := h.get hc
  refine ⟨v, hv, ?_⟩
  have := g.view c.ns
  have ec : (⟨c.ns, c.lines⟩ : Cat K (Option Nat)) = c := rfl
  rw [ec, hn] at this
  exact this

theorem Sim.cat {w : World K} {s : List (VCat K)} (h : Sim w s) {k : Nat} {v : VCat K} (hv : s[k]? = some v) : ∃ c, w.cats[k]? = some c ∧ LineDef.view w.heap c = .ok v := by
  have hk : k < w.cats.length := by
    rw [h.len]
    rcases Nat.lt_or_ge k s.length with h' | h'
    · exact h'
    · rw [List.getElem?_eq_none h'] at hv; cases hv
  obtain ⟨v', hv', e⟩ := h.view (List.getElem?_eq_getElem hk)
  rw [hv] at hv'; cases hv'
  exact ⟨_, List.getElem?_eq_getElem hk, e⟩

theorem ended_sim {w w' : World K} {s : List (VCat K)} (h : Sim w s) {c : Call K} (he : Ended (w.call c) w') : ∃ s' e, spec s c = some (s', e) ∧ Sim w' s' ∧
    (e = none → w.call c = .done w') ∧ (∀ x, e = some x → w.call c = .thrown x w') := by
  have := call_sim h c
  cases hs : spec s c with
  | none =>
    rw [hs] at this
    simp only at this
    rcases he with he | ⟨e, he⟩ <;> rw [this] at he <;> cases he
  | some r =>
    obtain ⟨s', e⟩ := r
    rw [hs] at this
    refine ⟨s', e, rfl, ?_⟩
    cases e with
    | none =>
      obtain ⟨w1, e1, h1⟩ := this
      rcases he with he | ⟨e, he⟩
      · rw [e1] at he; cases he
        exact ⟨h1, fun _ => e1, by intro x hx; cases hx⟩
      · rw [e1] at he; cases he
    | some e =>
      obtain ⟨w1, e1, h1⟩ := this
      rcases he with he | ⟨e, he⟩
      · rw [e1] at he; cases he
      · rw [e1] at he; cases he
        exact ⟨h1, by intro hx; (nomatch hx), by intro x hx; cases hx; exact e1⟩

theorem spec_frame {s s' : List (VCat K)} {c : Call K} {e} (h : spec s c = some (s', e)) {j : Nat} {v : VCat K} (hj : s[j]? = some v) (ht : target c ≠ some j) : s'[j]? = some v := by
  have app : ∀ l : List (VCat K), (s ++ l)[j]? = some v := by
    intro l
    rw [List.getElem?_append_left, hj]
    rcases Nat.lt_or_ge j s.length with h' | h'
    · exact h'
    · rw [List.getElem?_eq_none h'] at hj; cases hj
  cases c with
  | new ns => cases h; exact app _
  | add k a =>
    simp only [spec] at h
    cases hk : s[k]? with
    | none => rw [hk] at h; cases h
    | some c =>
      rw [hk] at h
      simp only [Option.bind_some] at h
      have hne : k ≠ j := fun e => ht (by rw [e]; rfl)
      cases hd : described c.ns a with
      | ok l => rw [hd] at h; cases h; rw [List.getElem?_set_ne hne, hj]
      | throw e => rw [hd] at h; cases h; exact hj
      | ub => rw [hd] at h; cases h
  | copy k =>
    simp only [spec] at h
    cases hk : s[k]? with
    | none => rw [hk] at h; cases h
    | some c => rw [hk] at h; cases h; exact app _
  | ratio k =>
    simp only [spec] at h
    cases hk : s[k]? with
    | none => rw [hk] at h; cases h
    | some c => rw [hk] at h; cases h; exact app _
  | filter k t f =>
    simp only [spec] at h
    cases hk : s[k]? with
    | none => rw [hk] at h; cases h
    | some c => rw [hk] at h; cases h; exact app _
  | amp k id a =>
    simp only [spec] at h
    cases hk : s[k]? with
    | none => rw [hk] at h; cases h
    | some c =>
      rw [hk] at h
      simp only [Option.bind_some] at h
      have hne : k ≠ j := fun e => ht (by rw [e]; rfl)
      cases hd : mapFind id c.lines with
      | some l => rw [hd] at h; cases h; rw [List.getElem?_set_ne hne, hj]
      | none => rw [hd] at h; cases h; exact hj
  | asym k name q =>
    simp only [spec] at h
    cases hk : s[k]? with
    | none => rw [hk] at h; cases h
    | some c =>
      rw [hk] at h
      have hne : k ≠ j := fun e => ht (by rw [e]; rfl)
      cases h
      rw [List.getElem?_set_ne hne, hj]
  | conv k igm =>
    simp only [spec] at h
    cases hk : s[k]? with
    | none => rw [hk] at h; cases h
    | some c =>
      rw [hk] at h
      have hne : k ≠ j := fun e => ht (by rw [e]; rfl)
      cases h
      rw [List.getElem?_set_ne hne, hj]

/-- **C187** (independence). In any state reached, a call, whether it returns or throws, leaves every catalogue other than the one it is called on exactly as it was: same lines, same profiles. -/
theorem C187_apart {w w' : World K} (h : Reached w) {c : Call K} (he : Ended (w.call c) w') {j : Nat} {d : Cat K (Option Nat)} (hj : w.cats[j]? = some d) (ht : target c ≠ some j) :
    ∃ d', w'.cats[j]? = some d' ∧ view w'.heap d' = view w.heap d := by
  obtain ⟨s, sm⟩ := reached_sim h
  obtain ⟨v, hv, e1⟩ := sm.view hj
  obtain ⟨s', e, hs, sm', _, _⟩ := ended_sim sm he
  obtain ⟨d', h1, h2⟩ := sm'.cat (spec_frame hs hv ht)
  exact ⟨d', h1, by rw [h2, e1]⟩

/-- **C187** (copies). The catalogue that a copy makes holds the lines of the original at that moment. -/
theorem C187_copy {w w' : World K} (h : Reached w) {k : Nat} {d : Cat K (Option Nat)} (hk : w.cats[k]? = some d) :
    (w.call (.copy k) = .done w' → ∃ d', w'.cats[w.cats.length]? = some d' ∧ view w'.heap d' = view w.heap d) ∧
    (w.call (.ratio k) = .done w' → ∃ d' v, w'.cats[w.cats.length]? = some d' ∧ view w.heap d = .ok v ∧ view w'.heap d' = .ok ⟨v.ns, v.lines.map fun x => (x.1, { x.2 with nom := 0 })⟩) ∧
    (∀ t f, w.call (.filter k t f) = .done w' → ∃ d' v, w'.cats[w.cats.length]? = some d' ∧ view w.heap d = .ok v ∧
      view w'.heap d' = .ok ⟨v.ns, v.lines.filter fun x => (decide (t = .all) || decide (t = x.2.type)) && (decide (f = .all) || decide (f = x.2.force))⟩) := by
  obtain ⟨s, sm⟩ := reached_sim h
  obtain ⟨v, hv, e1⟩ := sm.view hk
  have last : ∀ x : VCat K, (s ++ [x])[w.cats.length]? = some x := by
    intro x; rw [sm.len, List.getElem?_append_right (Nat.le_refl _)]; simp
  refine ⟨?_, ?_, ?_⟩
  · intro he
    obtain ⟨s', e, hs, sm', _, _⟩ := ended_sim sm (.inl he)
    simp only [spec, hv] at hs
    cases hs
    obtain ⟨d', h1, h2⟩ := sm'.cat (last _)
    exact ⟨d', h1, by rw [h2, e1]⟩
  · intro he
    obtain ⟨s', e, hs, sm', _, _⟩ := ended_sim sm (.inl he)
    simp only [spec, hv] at hs
    cases hs
    obtain ⟨d', h1, h2⟩ := sm'.cat (last _)
    exact ⟨d', v, h1, e1, h2⟩
  · intro t f he
    obtain ⟨s', e, hs, sm', _, _⟩ := ended_sim sm (.inl he)
    simp only [spec, hv] at hs
    cases hs
    obtain ⟨d', h1, h2⟩ := sm'.cat (last _)
    exact ⟨d', v, h1, e1, h2⟩

/-- **C187** (refused calls). A call that throws changes no catalogue at all. -/
theorem C187_refused {w w' : World K} (h : Reached w) {c : Call K} {e : Err} (he : w.call c = .thrown e w') : w'.cats.length = w.cats.length ∧
    ∀ (j : Nat) (d : Cat K (Option Nat)), w.cats[j]? = some d → ∃ d', w'.cats[j]? = some d' ∧ view w'.heap d' = view w.heap d := by
  obtain ⟨s, sm⟩ := reached_sim h
  obtain ⟨s', e', hs, sm', h1, h2⟩ := ended_sim sm (.inr ⟨e, he⟩)
  have hss : s' = s := by
    have hne : e' ≠ none := by
      intro e0; rw [h1 e0] at he; cases he
    cases c with
    | new ns => cases hs; exact absurd rfl hne
    | add k a =>
      simp only [spec] at hs
      cases hk : s[k]? with
      | none => rw [hk] at hs; cases hs
      | some c =>
        rw [hk] at hs
        simp only [Option.bind_some] at hs
        cases hd : described c.ns a with
        | ok l => rw [hd] at hs; cases hs; exact absurd rfl hne
        | throw e => rw [hd] at hs; cases hs; rfl
        | ub => rw [hd] at hs; cases hs
    | copy k =>
      simp only [spec] at hs
      cases hk : s[k]? with
      | none => rw [hk] at hs; cases hs
      | some c => rw [hk] at hs; cases hs; exact absurd rfl hne
    | ratio k =>
      simp only [spec] at hs
      cases hk : s[k]? with
      | none => rw [hk] at hs; cases hs
      | some c => rw [hk] at hs; cases hs; exact absurd rfl hne
    | filter k t f =>
      simp only [spec] at hs
      cases hk : s[k]? with
      | none => rw [hk] at hs; cases hs
      | some c => rw [hk] at hs; cases hs; exact absurd rfl hne
    | amp k id a =>
      simp only [spec] at hs
      cases hk : s[k]? with
      | none => rw [hk] at hs; cases hs
      | some c =>
        rw [hk] at hs
        simp only [Option.bind_some] at hs
        cases hd : mapFind id c.lines with
        | some l => rw [hd] at hs; cases hs; exact absurd rfl hne
        | none => rw [hd] at hs; cases hs; rfl
    | asym k name q =>
      simp only [spec] at hs
      cases hk : s[k]? with
      | none => rw [hk] at hs; cases hs
      | some c =>
        rw [hk] at hs
        simp only [Option.bind_some, Option.some.injEq, Prod.mk.injEq] at hs
        obtain ⟨hs1, hs2⟩ := hs
        have : (asymV name q c).1 = c := by
          unfold asymV at hs2 ⊢
          cases hp : profileSet c.ns name q none with
          | ok w => rw [hp] at hs2; exact absurd hs2.symm hne
          | throw e => rfl
          | ub => rfl
        rw [← hs1, this]
        rcases List.getElem?_eq_some_iff.1 hk with ⟨hk', e⟩
        rw [← e, List.set_getElem_self]
    | conv k igm =>
      simp only [spec] at hs
      cases hk : s[k]? with
      | none => rw [hk] at hs; cases hs
      | some c => rw [hk] at hs; cases hs; exact absurd rfl hne
  subst hss
  refine ⟨by rw [sm'.len, sm.len], ?_⟩
  intro j d hj
  obtain ⟨v, hv, e1⟩ := sm.view hj
  obtain ⟨d', h3, h4⟩ := sm'.cat hv
  exact ⟨d', h3, by rw [h4, e1]⟩

/-! ## C188: a line is what its description says -/

/-- The type that a word means: the word `no` (all types), else its first letter. -/
def TypeWord (s : String) (t : LType) : Prop :=
  (s = "no" ∧ t = .all) ∨ (s ≠ "no" ∧ s.toList.head? = some 'E' ∧ t = .emission) ∨ (s ≠ "no" ∧ s.toList.head? = some 'A' ∧ t = .absorption)

/-- The force that a word means. -/
def ForceWord (s : String) (t : Force) : Prop :=
  (s = "no" ∧ t = .all) ∨ (s ≠ "no" ∧ s.toList.head? = some 'W' ∧ t = .weak) ∨ (s ≠ "no" ∧ s.toList.head? = some 'S' ∧ t = .strong)

/-- The profile that a name and parameters ask for. -/
def ProfileWord (ns : K) (name : String) (q : AsymP K) (igm : Option Nat) (v : Prof K) : Prop :=
  ("ASYMFIXED".toList <:+: name.toList ∧ v = .asym ns q "mean") ∨ (name = "SYM" ∧ v = .sym ns) ∨ (name = "LOR" ∧ v = .lor ns) ∨ (name = "ASYM" ∧ v = .asym ns q "none") ∨
  (name = "ASYMFIT" ∧ v = .asymFit ns q "mean") ∨ (name = "SYMIGM" ∧ v = .symIgm ns igm none none false)

theorem type_word {s : String} {t : LType} (h : string2Type s = .ok t) : TypeWord s t := by
  unfold string2Type at h
  by_cases c : s = "no"
  · rw [if_pos c] at h; cases h; exact .inl ⟨c, rfl⟩
  · rw [if_neg c] at h
    unfold TypeWord
    cases hs : s.toList with
    | nil => rw [hs] at h; cases h
    | cons a l =>
      rw [hs] at h
      simp only at h
      by_cases c1 : a = 'E'
      · rw [if_pos c1] at h; cases h
        exact .inr (.inl ⟨c, by simp [c1], rfl⟩)
      · rw [if_neg c1] at h
        by_cases c2 : a = 'A'
        · rw [if_pos c2] at h; cases h
          exact .inr (.inr ⟨c, by simp [c2], rfl⟩)
        · rw [if_neg c2] at h; cases h

theorem force_word {s : String} {t : Force} (h : string2Force s = .ok t) : ForceWord s t := by
  unfold string2Force at h
  by_cases c : s = "no"
  · rw [if_pos c] at h; cases h; exact .inl ⟨c, rfl⟩
  · rw [if_neg c] at h
    unfold ForceWord
    cases hs : s.toList with
    | nil => rw [hs] at h; cases h
    | cons a l =>
      rw [hs] at h
      simp only at h
      by_cases c1 : a = 'W'
      · rw [if_pos c1] at h; cases h
        exact .inr (.inl ⟨c, by simp [c1], rfl⟩)
      · rw [if_neg c1] at h
        by_cases c2 : a = 'S'
        · rw [if_pos c2] at h; cases h
          exact .inr (.inr ⟨c, by simp [c2], rfl⟩)
        · rw [if_neg c2] at h; cases h

theorem profileSet_word {ns : K} {name : String} {q : AsymP K} {igm : Option Nat} {v : Prof K} (h : profileSet ns name q igm = .ok v) : ProfileWord ns name q igm v := by
  unfold profileSet at h
  unfold ProfileWord
  by_cases c0 : isFixedName name = true
  · rw [if_pos c0] at h; cases h
    exact .inl ⟨of_decide_eq_true c0, rfl⟩
  rw [if_neg c0] at h
  by_cases c1 : name = "SYM"
  · rw [if_pos c1] at h; cases h; exact .inr (.inl ⟨c1, rfl⟩)
  rw [if_neg c1] at h
  by_cases c2 : name = "LOR"
  · rw [if_pos c2] at h; cases h; exact .inr (.inr (.inl ⟨c2, rfl⟩))
  rw [if_neg c2] at h
  by_cases c3 : name = "ASYM"
  · rw [if_pos c3] at h; cases h; exact .inr (.inr (.inr (.inl ⟨c3, rfl⟩)))
  rw [if_neg c3] at h
  by_cases c4 : name = "ASYMFIT"
  · rw [if_pos c4] at h; cases h; exact .inr (.inr (.inr (.inr (.inl ⟨c4, rfl⟩))))
  rw [if_neg c4] at h
  by_cases c5 : name = "SYMIGM"
  · rw [if_pos c5] at h; cases h; exact .inr (.inr (.inr (.inr (.inr ⟨c5, rfl⟩))))
  rw [if_neg c5] at h; cases h

/-- The two functions that make a profile differ only in the parameters of `ASYM` and `ASYMFIT`. -/
theorem profileAdd_eq (ns : K) (name : String) (q : AsymP K) (igm : Option Nat) :
    profileAdd ns name q igm = profileSet ns name (if name = "ASYM" then ⟨1, 9 / 2, 0⟩ else if name = "ASYMFIT" then ⟨2, 2, 0⟩ else q) igm := by
  unfold profileAdd profileSet
  have f1 : isFixedName "ASYM" = false := by decide +kernel
  have f2 : isFixedName "ASYMFIT" = false := by decide +kernel
  by_cases c3 : name = "ASYM"
  · subst c3; simp [f1]
  · by_cases c4 : name = "ASYMFIT"
    · subst c4; simp [f2]
    · simp [c3, c4]

/-- **C188** (partial). A line added is found under its identifier with the name, position, offset, groups, nominal amplitude and identifiers given, the type and the force of their words and a profile of
the kind named with the support of the catalogue; all the other lines are as before. The asymmetry parameters are those given except for `ASYM` and `ASYMFIT`, which have always (1, 4.5, 0) and (2, 2, 0). -/
theorem C188_added_partial {w w' : World K} (h : Reached w) {k : Nat} {a : Params K} (he : w.call (.add k a) = .done w') :
    ∃ c c' v v' l, w.cats[k]? = some c ∧ w'.cats[k]? = some c' ∧ view w.heap c = .ok v ∧ view w'.heap c' = .ok v' ∧ v'.ns = v.ns ∧ mapFind a.id v'.lines = some l ∧
      (∀ i, i ≠ a.id → mapFind i v'.lines = mapFind i v.lines) ∧
      l.id = a.id ∧ l.strId = a.strId ∧ l.name = a.name ∧ l.group = a.group ∧ l.velGroup = a.velGroup ∧ l.pos = a.pos ∧ l.offset = a.offset ∧ l.offsetFit = a.offsetFit ∧ l.nom = a.nom ∧
      TypeWord a.type l.type ∧ ForceWord a.force l.force ∧
      ProfileWord v.ns a.profile (if a.profile = "ASYM" then ⟨1, 9 / 2, 0⟩ else if a.profile = "ASYMFIT" then ⟨2, 2, 0⟩ else a.asym) a.igm l.prof := by
  obtain ⟨s, sm⟩ := reached_sim h
  obtain ⟨s', e', hs, sm', h1, h2⟩ := ended_sim sm (.inl he)
  simp only [spec] at hs
  cases hk : s[k]? with
  | none => rw [hk] at hs; cases hs
  | some v =>
    rw [hk] at hs
    simp only [Option.bind_some] at hs
    have hkl : k < s.length := by
      rcases Nat.lt_or_ge k s.length with h' | h'
      · exact h'
      · rw [List.getElem?_eq_none h'] at hk; cases hk
    obtain ⟨c, hc, ec⟩ := sm.cat hk
    cases hd : described v.ns a with
    | ub => rw [hd] at hs; cases hs
    | throw e =>
      rw [hd] at hs
      simp only [Option.some.injEq, Prod.mk.injEq] at hs
      have := h2 e hs.2.symm
      rw [he] at this; cases this
    | ok l =>
      rw [hd] at hs
      simp only [Option.some.injEq, Prod.mk.injEq] at hs
      obtain ⟨hs, _⟩ := hs
      subst hs
      obtain ⟨c', hc', ec'⟩ := sm'.cat (k := k) (v := ⟨v.ns, mapPut a.id l v.lines⟩) (List.getElem?_set_self hkl)
      unfold described at hd
      obtain ⟨t, ht, hd⟩ := Res.bind_eq_ok.1 hd
      obtain ⟨f, hf, hd⟩ := Res.bind_eq_ok.1 hd
      obtain ⟨p, hp, hd⟩ := Res.bind_eq_ok.1 hd
      cases hd
      rw [profileAdd_eq] at hp
      refine ⟨c, c', v, _, _, hc, hc', ec, ec', rfl, by rw [mapFind_put, if_pos rfl], ?_, rfl, rfl, rfl, rfl, rfl, rfl, rfl, rfl, rfl, type_word ht, force_word hf, profileSet_word hp⟩
      intro i hi
      simp only
      rw [mapFind_put, if_neg hi]

/-- A line with asymmetry parameters (3, 1, 0). -/
def exAsym (name : String) : Params ℚ := ⟨"LyAE", 1215, "E", "S", name, ⟨3, 1, 0⟩, "undefined", 1, "v", 0, false, 7, "LyAE_1215_E", none⟩

/-- **C188** (counterexample). Given with a profile `ASYM` or `ASYMFIT`, the asymmetry parameters (3, 1, 0) are not those of the line. -/
theorem C188_counterexample : ∀ name ∈ ["ASYM", "ASYMFIT"], ∃ (w : World ℚ) (c : Cat ℚ (Option Nat)) (v : VCat ℚ) (l : Rec ℚ (Prof ℚ)),
    (World.empty : World ℚ).run [.new 8, .add 0 (exAsym name)] = some (w, [none, none]) ∧ w.cats[0]? = some c ∧ view w.heap c = .ok v ∧ mapFind 7 v.lines = some l ∧
    ¬ ProfileWord 8 name ⟨3, 1, 0⟩ none l.prof := by
  have n1 : ¬ "ASYMFIXED".toList <:+: "ASYM".toList := by decide +kernel
  have n2 : ¬ "ASYMFIXED".toList <:+: "ASYMFIT".toList := by decide +kernel
  intro name hn
  have key : ∀ (nm : String) (p : Prof ℚ), described (8 : ℚ) (exAsym nm) = .ok ⟨7, "LyAE_1215_E", "LyAE", "undefined", "v", .emission, .strong, 1215, 0, false, 1, p⟩ →
      ¬ ProfileWord 8 nm ⟨3, 1, 0⟩ none p → ∃ (w : World ℚ) (c : Cat ℚ (Option Nat)) (v : VCat ℚ) (l : Rec ℚ (Prof ℚ)),
      (World.empty : World ℚ).run [.new 8, .add 0 (exAsym nm)] = some (w, [none, none]) ∧ w.cats[0]? = some c ∧ view w.heap c = .ok v ∧ mapFind 7 v.lines = some l ∧
      ¬ ProfileWord 8 nm ⟨3, 1, 0⟩ none l.prof := by
    intro nm p hd hw
    have := run_sim [.new 8, .add 0 (exAsym nm)] (empty_sim (K := ℚ))
    have e : specRun ([] : List (VCat ℚ)) [.new 8, .add 0 (exAsym nm)] =
        some ([⟨8, [(7, ⟨7, "LyAE_1215_E", "LyAE", "undefined", "v", .emission, .strong, 1215, 0, false, 1, p⟩)]⟩], [none, none]) := by
      have hid : (exAsym nm).id = 7 := rfl
      simp [specRun, spec, hd, mapPut, hid]
    rw [e] at this
    obtain ⟨w, e1, sm⟩ := this
    obtain ⟨c, hc, ec⟩ := sm.cat (k := 0) (List.getElem?_cons_zero)
    exact ⟨w, c, _, _, e1, hc, ec, by simp [mapFind]; rfl, hw⟩
  simp only [List.mem_cons, List.not_mem_nil, or_false] at hn
  rcases hn with rfl | rfl
  · refine key "ASYM" (.asym 8 ⟨1, 9 / 2, 0⟩ "none") (by decide +kernel) ?_
    unfold ProfileWord
    rintro (⟨h, _⟩ | ⟨h, _⟩ | ⟨h, _⟩ | ⟨_, h⟩ | ⟨h, _⟩ | ⟨h, _⟩)
    · exact n1 h
    · exact absurd h (by decide)
    · exact absurd h (by decide)
    · simp at h
    · exact absurd h (by decide)
    · exact absurd h (by decide)
  · refine key "ASYMFIT" (.asymFit 8 ⟨2, 2, 0⟩ "mean") (by decide +kernel) ?_
    unfold ProfileWord
    rintro (⟨h, _⟩ | ⟨h, _⟩ | ⟨h, _⟩ | ⟨h, _⟩ | ⟨_, h⟩ | ⟨h, _⟩)
    · exact n2 h
    · exact absurd h (by decide)
    · exact absurd h (by decide)
    · exact absurd h (by decide)
    · simp at h
    · exact absurd h (by decide)

/-- A word whose first letter is neither of those known is refused; an empty one is undefined. -/
theorem C188_refused (s : String) (h : s ≠ "no") : (s.toList = [] → string2Type s = .ub ∧ string2Force s = .ub) ∧
    (∀ a l, s.toList = a :: l → (a ≠ 'E' → a ≠ 'A' → string2Type s = .throw .BAD_LINE_TYPE) ∧ (a ≠ 'W' → a ≠ 'S' → string2Force s = .throw .BAD_LINE_FORCE)) := by
  constructor
  · intro e; simp [string2Type, string2Force, h, e]
  · intro a l e
    refine ⟨?_, ?_⟩ <;> intro h1 h2 <;> simp [string2Type, string2Force, h, e, h1, h2]

/-! ## C189: changes of the profiles of a catalogue -/

/-- **C189** (extinction). After the conversion, the emission lines named `LyAE` or under 1216 Å, and no others, have the profile with extinction, with the curves given; nothing else of any line changes. -/
theorem C189_igm {w w' : World K} (h : Reached w) {k : Nat} {igm : Option Nat} (he : Ended (w.call (.conv k igm)) w') :
    w.call (.conv k igm) = .done w' ∧ ∃ c c' v v', w.cats[k]? = some c ∧ w'.cats[k]? = some c' ∧ view w.heap c = .ok v ∧ view w'.heap c' = .ok v' ∧ v'.ns = v.ns ∧
      List.Forall₂ (fun x y : ℤ × Rec K (Prof K) => y.1 = x.1 ∧ y.2 = x.2.withProf y.2.prof ∧
        ((x.2.type = .emission ∧ (x.2.name = "LyAE" ∨ x.2.pos < 1216) → y.2.prof = .symIgm v.ns igm none none false) ∧
         (¬ (x.2.type = .emission ∧ (x.2.name = "LyAE" ∨ x.2.pos < 1216)) → y.2.prof = x.2.prof))) v.lines v'.lines := by
  obtain ⟨s, sm⟩ := reached_sim h
  obtain ⟨s', e', hs, sm', h1, h2⟩ := ended_sim sm he
  simp only [spec] at hs
  cases hk : s[k]? with
  | none => rw [hk] at hs; cases hs
  | some v =>
    rw [hk] at hs
    simp only [Option.bind_some, Option.some.injEq, Prod.mk.injEq] at hs
    obtain ⟨hs, he'⟩ := hs
    subst hs
    have hkl : k < s.length := by
      rcases Nat.lt_or_ge k s.length with h' | h'
      · exact h'
      · rw [List.getElem?_eq_none h'] at hk; cases hk
    obtain ⟨c, hc, ec⟩ := sm.cat hk
    obtain ⟨c', hc', ec'⟩ := sm'.cat (k := k) (v := convV igm v) (List.getElem?_set_self hkl)
    refine ⟨h1 he'.symm, c, c', v, _, hc, hc', ec, ec', rfl, ?_⟩
    simp only [convV]
    rw [List.forall₂_map_right_iff]
    refine List.forall₂_same.2 ?_
    intro x _
    have hu : underLya x.2 = true ↔ (x.2.type = .emission ∧ (x.2.name = "LyAE" ∨ x.2.pos < 1216)) := by
      simp only [underLya, Bool.and_eq_true, Bool.or_eq_true, decide_eq_true_iff]
      rfl
    by_cases hx : underLya x.2 = true
    · rw [if_pos hx]
      exact ⟨rfl, rfl, fun _ => rfl, fun hn => absurd (hu.1 hx) hn⟩
    · rw [if_neg hx]
      exact ⟨rfl, rfl, fun hy => absurd (hu.2 hy) hx, fun _ => rfl⟩

/-- **C189** (partial). A change of the asymmetric profiles that returns gives to every asymmetric line the profile named, with the parameters given, and changes nothing else — provided there is one:
a catalogue without asymmetric line takes any name. -/
theorem C189_asym_partial {w w' : World K} (h : Reached w) {k : Nat} {name : String} {q : AsymP K} (he : w.call (.asym k name q) = .done w') :
    ∃ c c' v v', w.cats[k]? = some c ∧ w'.cats[k]? = some c' ∧ view w.heap c = .ok v ∧ view w'.heap c' = .ok v' ∧ v'.ns = v.ns ∧
      List.Forall₂ (fun x y : ℤ × Rec K (Prof K) => y.1 = x.1 ∧ y.2 = x.2.withProf y.2.prof ∧
        (((∃ n s t, x.2.prof = .asym n s t ∨ x.2.prof = .asymFit n s t) → ProfileWord v.ns name q none y.2.prof) ∧
         ((∀ n s t, x.2.prof ≠ .asym n s t ∧ x.2.prof ≠ .asymFit n s t) → y.2.prof = x.2.prof))) v.lines v'.lines := by
  obtain ⟨s, sm⟩ := reached_sim h
  obtain ⟨s', e', hs, sm', h1, h2⟩ := ended_sim sm (.inl he)
  simp only [spec] at hs
  cases hk : s[k]? with
  | none => rw [hk] at hs; cases hs
  | some v =>
    rw [hk] at hs
    simp only [Option.bind_some, Option.some.injEq, Prod.mk.injEq] at hs
    obtain ⟨hs, he'⟩ := hs
    subst hs
    have hkl : k < s.length := by
      rcases Nat.lt_or_ge k s.length with h' | h'
      · exact h'
      · rw [List.getElem?_eq_none h'] at hk; cases hk
    obtain ⟨c, hc, ec⟩ := sm.cat hk
    obtain ⟨c', hc', ec'⟩ := sm'.cat (k := k) (v := (asymV name q v).1) (List.getElem?_set_self hkl)
    refine ⟨c, c', v, _, hc, hc', ec, ec', ?_, ?_⟩
    · unfold asymV; cases profileSet v.ns name q none <;> rfl
    · cases hp : profileSet v.ns name q none with
      | ok pv =>
        simp only [asymV, hp]
        rw [List.forall₂_map_right_iff]
        refine List.forall₂_same.2 ?_
        intro x _
        by_cases hx : x.2.prof.isAsymAny = true
        · rw [if_pos hx]
          refine ⟨rfl, rfl, fun _ => profileSet_word hp, ?_⟩
          intro hn
          exfalso
          cases hq : x.2.prof with
          | asym n s t => exact (hn n s t).1 hq
          | asymFit n s t => exact (hn n s t).2 hq
          | sym n => rw [hq] at hx; cases hx
          | lor n => rw [hq] at hx; cases hx
          | symIgm n i j z f => rw [hq] at hx; cases hx
        · rw [if_neg hx]
          refine ⟨rfl, rfl, ?_, fun _ => rfl⟩
          rintro ⟨p, s, t, e | e⟩ <;> exact absurd (by rw [e]; rfl) hx
      | throw e =>
        have hn : ∀ x ∈ v.lines, ¬ x.2.prof.isAsymAny = true := by
          intro x hx hxa
          have : e' = some .INTERNAL_ERROR := by
            rw [← he']
            simp only [asymV, hp]
            rw [if_pos (List.any_eq_true.2 ⟨x, hx, hxa⟩)]
          have := h2 _ this
          rw [he] at this; cases this
        simp only [asymV, hp]
        refine List.forall₂_same.2 ?_
        intro x hx
        refine ⟨rfl, rfl, ?_, fun _ => rfl⟩
        rintro ⟨p, s, t, e | e⟩ <;> exact absurd (by rw [e]; rfl) (hn x hx)
      | ub => rcases profileSet_cases v.ns name q none with ⟨w, hw⟩ | hw <;> rw [hp] at hw <;> cases hw

/-- The Lyman alpha line of a catalogue, to be fitted with an asymmetric profile. -/
def exLya : Params ℚ := ⟨"LyAE", 1215, "E", "S", "ASYMFIT", ⟨2, 2, 0⟩, "undefined", 1, "v", 0, false, 7, "LyAE_1215_E", none⟩

/-- **C189** (counterexample). A catalogue converted for the extinction, its line ratio catalogue given the asymmetry parameters (3, 1, 0): the call returns, the Lyman alpha line has no asymmetry and no
parameter; and a name that is no profile is then accepted, which is refused without the conversion. -/
theorem C189_counterexample : (∃ (w : World ℚ) (c : Cat ℚ (Option Nat)) (v : VCat ℚ) (l : Rec ℚ (Prof ℚ)),
    (World.empty : World ℚ).run [.new 8, .add 0 exLya, .conv 0 (some 0), .ratio 0, .asym 1 "ASYMFIXED" ⟨3, 1, 0⟩, .asym 1 "nothing" ⟨3, 1, 0⟩] = some (w, [none, none, none, none, none, none]) ∧
    w.cats[1]? = some c ∧ view w.heap c = .ok v ∧ mapFind 7 v.lines = some l ∧ l.prof = .symIgm 8 (some 0) none none false) ∧
    ∃ (w : World ℚ) (c : Cat ℚ (Option Nat)) (v : VCat ℚ) (l : Rec ℚ (Prof ℚ)),
    (World.empty : World ℚ).run [.new 8, .add 0 exLya, .ratio 0, .asym 1 "ASYMFIXED" ⟨3, 1, 0⟩, .asym 1 "nothing" ⟨3, 1, 0⟩] = some (w, [none, none, none, none, some .INTERNAL_ERROR]) ∧
    w.cats[1]? = some c ∧ view w.heap c = .ok v ∧ mapFind 7 v.lines = some l ∧ l.prof = .asym 8 ⟨3, 1, 0⟩ "mean" := by
  have key : ∀ (cs : List (Call ℚ)) (s : List (VCat ℚ)) (es) (v : VCat ℚ) (l : Rec ℚ (Prof ℚ)), specRun [] cs = some (s, es) → s[1]? = some v → mapFind 7 v.lines = some l →
      ∃ (w : World ℚ) (c : Cat ℚ (Option Nat)), (World.empty : World ℚ).run cs = some (w, es) ∧ w.cats[1]? = some c ∧ view w.heap c = .ok v := by
    intro cs s es v l h1 h2 h3
    have := run_sim cs (empty_sim (K := ℚ))
    rw [h1] at this
    obtain ⟨w, e1, sm⟩ := this
    obtain ⟨c, hc, ec⟩ := sm.cat h2
    exact ⟨w, c, e1, hc, ec⟩
  constructor
  · obtain ⟨w, c, h1, h2, h3⟩ := key [.new 8, .add 0 exLya, .conv 0 (some 0), .ratio 0, .asym 1 "ASYMFIXED" ⟨3, 1, 0⟩, .asym 1 "nothing" ⟨3, 1, 0⟩]
      [⟨8, [(7, ⟨7, "LyAE_1215_E", "LyAE", "undefined", "v", .emission, .strong, 1215, 0, false, 1, .symIgm 8 (some 0) none none false⟩)]⟩,
       ⟨8, [(7, ⟨7, "LyAE_1215_E", "LyAE", "undefined", "v", .emission, .strong, 1215, 0, false, 0, .symIgm 8 (some 0) none none false⟩)]⟩] [none, none, none, none, none, none] _ _ (by decide +kernel) rfl rfl
    exact ⟨w, c, _, _, h1, h2, h3, rfl, rfl⟩
  · obtain ⟨w, c, h1, h2, h3⟩ := key [.new 8, .add 0 exLya, .ratio 0, .asym 1 "ASYMFIXED" ⟨3, 1, 0⟩, .asym 1 "nothing" ⟨3, 1, 0⟩]
      [⟨8, [(7, ⟨7, "LyAE_1215_E", "LyAE", "undefined", "v", .emission, .strong, 1215, 0, false, 1, .asymFit 8 ⟨2, 2, 0⟩ "mean"⟩)]⟩,
       ⟨8, [(7, ⟨7, "LyAE_1215_E", "LyAE", "undefined", "v", .emission, .strong, 1215, 0, false, 0, .asym 8 ⟨3, 1, 0⟩ "mean"⟩)]⟩] [none, none, none, none, some .INTERNAL_ERROR] _ _ (by decide +kernel) rfl rfl
    exact ⟨w, c, _, _, h1, h2, h3, rfl, rfl⟩

/-- The hypotheses of the theorems above are met: a state reached with two catalogues, and a call on the second one. -/
example : ∃ w w' : World ℚ, Reached w ∧ w.cats.length = 2 ∧ w.call (.asym 1 "ASYMFIXED" ⟨3, 1, 0⟩) = .done w' := by
  have := C187_refines (K := ℚ) [.new 8, .add 0 exLya, .ratio 0]
  have hs : specRun ([] : List (VCat ℚ)) [.new 8, .add 0 exLya, .ratio 0] = some (
      [⟨8, [(7, ⟨7, "LyAE_1215_E", "LyAE", "undefined", "v", .emission, .strong, 1215, 0, false, 1, .asymFit 8 ⟨2, 2, 0⟩ "mean"⟩)]⟩,
       ⟨8, [(7, ⟨7, "LyAE_1215_E", "LyAE", "undefined", "v", .emission, .strong, 1215, 0, false, 0, .asymFit 8 ⟨2, 2, 0⟩ "mean"⟩)]⟩], [none, none, none]) := by decide +kernel
  have := run_sim [.new 8, .add 0 exLya, .ratio 0] (empty_sim (K := ℚ))
  rw [hs] at this
  obtain ⟨w, e, sm⟩ := this
  have hc := call_sim sm (.asym 1 "ASYMFIXED" ⟨3, 1, 0⟩)
  obtain ⟨w', e', _⟩ := hc
  exact ⟨w, w', ⟨_, _, e⟩, sm.len, e'⟩

end LineDef
end Amazed
