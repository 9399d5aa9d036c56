import Verif.Props.RulesStrong

set_option linter.unusedVariables false
set_option linter.unusedSectionVars false

/-! # C69 (super strong lines) and C70: the regulament -/

namespace Amazed
namespace Rules
open Amp

variable {K : Type} [Field K] [LinearOrder K] [IsStrictOrderedRing K]

/-! ## Super strong lines -/

/-- A super strong line: strong, in range, of an element of the type, with one of the names, amplitude `x` and error `s`. -/
def SuperLine (t : LType) (tags : List String) (es : List (Elt K)) (i j : Nat) (x : K) (s : Option K) : Prop :=
  ∃ e l, es[i]? = some e ∧ e.type = t ∧ e.lines[j]? = some l ∧ l.force = .strong ∧ l.name ∈ tags ∧
    e.outsideLine[j]? = some false ∧ e.fa[j]? = some (some x) ∧ e.fastd[j]? = some s

/-- Invariant of the search over the lines before `(i, k)`. -/
def SupInv (t : LType) (tags : List String) (es : List (Elt K)) (i k : Nat) (p : K × Option K) : Prop :=
  -1 ≤ p.1 ∧ (∀ i' j x s, SuperLine t tags es i' j x s → (i' < i ∨ (i' = i ∧ j < k)) → x ≤ p.1) ∧
  (p.1 = -1 ∨ ∃ i' j, SuperLine t tags es i' j p.1 p.2)

theorem SupInv.weaken {t : LType} {tags : List String} {es : List (Elt K)} {i k i2 k2 : Nat} {p : K × Option K}
    (h : SupInv t tags es i k p)
    (hc : ∀ i' j x s, SuperLine t tags es i' j x s → (i' < i2 ∨ (i' = i2 ∧ j < k2)) → (i' < i ∨ (i' = i ∧ j < k))) :
    SupInv t tags es i2 k2 p :=
  ⟨h.1, fun i' j x s hs hlt => h.2.1 i' j x s hs (hc i' j x s hs hlt), h.2.2⟩

theorem superLines_spec (t : LType) (tags : List String) (es : List (Elt K)) (i : Nat) (e : Elt K) (he : es[i]? = some e) (hw : WF e)
    (p : K × Option K) (hp : SupInv t tags es i 0 p) :
    ∃ p', superLines t tags e p = .ok p' ∧ SupInv t tags es i e.lines.length p' := by
  unfold superLines
  obtain ⟨p', h1, h2⟩ := Res.foldN_inv (fun k (s : K × Option K) => SupInv t tags es i k s) e.lines.length 0 p hp
    (f := fun k s =>
      Res.at_ e.lines k >>= fun l =>
      if l.force ≠ .strong ∨ e.type ≠ t then .ok s
      else Res.at_ e.outsideLine k >>= fun o =>
        if o ∨ l.name ∉ tags then .ok s
        else Res.at_ e.fa k >>= fun a => Res.at_ e.fastd k >>= fun er =>
          match a with
          | some x => if s.1 < x then .ok (x, er) else .ok s
          | none => .ok s)
    (by
      intro k s _ hk hinv
      rw [Nat.zero_add] at hk
      obtain ⟨l, hl1, hl2⟩ := get_of_lt (l := e.lines) (i := k) hk
      obtain ⟨o, ho1, ho2⟩ := get_of_lt (l := e.outsideLine) (i := k) (by rw [hw.outL]; exact hk)
      obtain ⟨a, ha1, ha2⟩ := get_of_lt (l := e.fa) (i := k) (by rw [hw.fa]; exact hk)
      obtain ⟨er, hr1, hr2⟩ := get_of_lt (l := e.fastd) (i := k) (by rw [hw.fastd]; exact hk)
      simp only [hl2, ho2, ha2, hr2, Res.bind_ok]
      have skip : (∀ x s', ¬ SuperLine t tags es i k x s') → SupInv t tags es i (k + 1) s := by
        intro hn
        apply hinv.weaken
        intro i' j x s' hst hc
        rcases hc with hc | ⟨rfl, hc⟩
        · exact Or.inl hc
        · rcases Nat.lt_or_ge j k with h | h
          · exact Or.inr ⟨rfl, h⟩
          · have : j = k := by omega
            subst this; exact absurd hst (hn x s')
      by_cases c1 : l.force ≠ .strong ∨ e.type ≠ t
      · rw [if_pos c1]
        refine ⟨s, rfl, skip ?_⟩
        rintro x s' ⟨e', l', h1, h2, h3, h4, _⟩
        rw [he] at h1; cases h1; rw [hl1] at h3; cases h3
        rcases c1 with c | c
        · exact c h4
        · exact c h2
      · rw [if_neg c1]
        push Not at c1
        by_cases c2 : o = true ∨ l.name ∉ tags
        · rw [if_pos c2]
          refine ⟨s, rfl, skip ?_⟩
          rintro x s' ⟨e', l', h1, h2, h3, h4, h5, h6, _⟩
          rw [he] at h1; cases h1; rw [hl1] at h3; cases h3
          rcases c2 with c | c
          · rw [ho1, c] at h6; simp at h6
          · exact c h5
        · rw [if_neg c2]
          push Not at c2
          have hof : o = false := by simpa using c2.1
          subst hof
          cases a with
          | none =>
            refine ⟨s, rfl, skip ?_⟩
            rintro x s' ⟨e', l', h1, h2, h3, h4, h5, h6, h7, _⟩
            rw [he] at h1; cases h1; rw [ha1] at h7; simp at h7
          | some x =>
            have hS : SuperLine t tags es i k x er := ⟨e, l, he, c1.2, hl1, c1.1, c2.2, ho1, ha1, hr1⟩
            have hval : ∀ y s', SuperLine t tags es i k y s' → y = x := by
              rintro y s' ⟨e', l', h1, _, _, _, _, _, h7, _⟩
              rw [he] at h1; cases h1; rw [ha1] at h7; simpa using h7.symm
            simp only
            by_cases hlt : s.1 < x
            · refine ⟨(x, er), by rw [if_pos hlt], le_trans hinv.1 hlt.le, ?_, Or.inr ⟨i, k, hS⟩⟩
              intro i' j y s' hy hc
              rcases hc with hc | ⟨rfl, hc⟩
              · exact (hinv.2.1 i' j y s' hy (Or.inl hc)).trans hlt.le
              · rcases Nat.lt_or_ge j k with h | h
                · exact (hinv.2.1 i' j y s' hy (Or.inr ⟨rfl, h⟩)).trans hlt.le
                · have : j = k := by omega
                  subst this; exact (hval y s' hy).le
            · refine ⟨s, by rw [if_neg hlt], hinv.1, ?_, hinv.2.2⟩
              intro i' j y s' hy hc
              rcases hc with hc | ⟨rfl, hc⟩
              · exact hinv.2.1 i' j y s' hy (Or.inl hc)
              · rcases Nat.lt_or_ge j k with h | h
                · exact hinv.2.1 i' j y s' hy (Or.inr ⟨rfl, h⟩)
                · have : j = k := by omega
                  subst this; rw [hval y s' hy]; exact not_lt.1 hlt)
  rw [Nat.zero_add] at h2
  exact ⟨p', h1, h2⟩

theorem highestSuper_spec (t : LType) (tags : List String) (es : List (Elt K)) (hw : ∀ e ∈ es, WF e) :
    ∃ p, highestSuper t tags es = .ok p ∧ -1 ≤ p.1 ∧ (∀ i j x s, SuperLine t tags es i j x s → x ≤ p.1) ∧
      (p.1 = -1 ∨ ∃ i j, SuperLine t tags es i j p.1 p.2) := by
  unfold highestSuper
  obtain ⟨p, h1, h2⟩ := Res.foldN_inv (fun k (s : K × Option K) => SupInv t tags es k 0 s) es.length 0 (-1, some (-1))
    ⟨le_refl _, by intro i' j x s _ h; omega, Or.inl rfl⟩
    (f := fun ie s => Res.at_ es ie >>= fun e => superLines t tags e s)
    (by
      intro k s _ hk hinv
      rw [Nat.zero_add] at hk
      have he : es[k]? = some es[k] := List.getElem?_eq_getElem hk
      simp only [Res.at_of_lt hk, Res.bind_ok]
      obtain ⟨s', h1, h2⟩ := superLines_spec t tags es k es[k] he (hw _ (List.getElem_mem hk)) s hinv
      refine ⟨s', h1, h2.weaken ?_⟩
      intro i' j x s1 hst hc
      rcases hc with hc | ⟨_, hc⟩
      · rcases Nat.lt_or_ge i' k with h | h
        · exact Or.inl h
        · have : i' = k := by omega
          subst this
          obtain ⟨e', l', h1, _, h3, _⟩ := hst
          rw [he] at h1; cases h1
          exact Or.inr ⟨rfl, (List.getElem?_eq_some_iff.1 h3).1⟩
      · omega)
  rw [Nat.zero_add] at h2
  refine ⟨p, h1, h2.1, ?_, h2.2.2⟩
  rintro i j x s hs
  have hs2 := hs
  obtain ⟨e, l, h, _⟩ := hs2
  exact h2.2.1 i j x s hs (Or.inl (List.getElem?_eq_some_iff.1 h).1)

/-- Lines limited by the super strong rule: in range, not super strong. -/
def SelOther (tags : List String) (e : Elt K) (i : Nat) : Prop :=
  e.outsideLine[i]? = some false ∧ ∃ l, e.lines[i]? = some l ∧ l.name ∉ tags

theorem limitOthers_spec (t : LType) (tags : List String) (e : Elt K) (L : K) (hg : Good e) :
    ∃ e' b, limitOthers t tags e (some L) = .ok (e', b) ∧ (e.type ≠ t → e' = e) ∧ (e.type = t → Limited e L (SelOther tags e) e') := by
  unfold limitOthers
  by_cases ht : e.type = t
  · obtain ⟨s', h1, h2⟩ := Res.foldN_inv (fun k (s : Elt K × Bool) => LimInv e L (SelOther tags e) k s.1) e.lines.length 0 (e, false)
      (Or.inl ⟨rfl, by intro j _ hj; omega⟩)
      (f := fun i (s : Elt K × Bool) =>
        Res.at_ s.1.lines i >>= fun (l : LineInfo) =>
        if s.1.type ≠ t then .ok s
        else Res.at_ s.1.outsideLine i >>= fun (o : Bool) =>
          if o ∨ l.name ∈ tags then .ok s
          else Res.at_ s.1.fa i >>= fun ampB =>
            if vEq (some L) ampB = true ∨ vEq (some L) (vMin (some L) ampB) = false then .ok s
            else limit s.1 i (some L) >>= fun r => .ok (r.1, true))
      (by
        rintro i ⟨e1, b1⟩ _ hi hinv
        rw [Nat.zero_add] at hi
        have hw1 := hinv.wf hg.wf
        obtain ⟨f, hf⟩ := hinv.same
        simp only at hf
        have ho : e1.outsideLine = e.outsideLine := by rw [hf]
        have hl : e1.lines = e.lines := by rw [hf]
        have hty : e1.type = t := by rw [hf]; exact ht
        obtain ⟨o, ho1, ho2⟩ := get_of_lt (l := e.outsideLine) (i := i) (by rw [hg.wf.outL]; exact hi)
        obtain ⟨l, hl1, hl2⟩ := get_of_lt (l := e.lines) (i := i) hi
        obtain ⟨a, ha1, ha2⟩ := get_of_lt (l := e1.fa) (i := i) (by rw [hw1.fa, hl]; exact hi)
        simp only [ho, hl, ho2, hl2, ha2, Res.bind_ok]
        rw [if_neg (by simp [hty])]
        by_cases c : o = true ∨ l.name ∈ tags
        · rw [if_pos c]
          refine ⟨(e1, b1), rfl, hinv.skip ?_⟩
          rintro ⟨h, l', hl', hn'⟩
          rw [hl1] at hl'; cases hl'
          rcases c with c | c
          · rw [ho1, c] at h; simp at h
          · exact hn' c
        · rw [if_neg c]
          push Not at c
          have hof : o = false := by simpa using c.1
          subst hof
          obtain ⟨e2, b2, h3, h4⟩ := hinv.step hg.wf hg.pos hg.fitted (fun i h => h.1) hi ⟨ho1, l, hl1, c.2⟩
          by_cases c2 : vEq (some L) a = true ∨ vEq (some L) (vMin (some L) a) = false
          · rw [if_pos c2]
            -- no line above the limit: the limitation would not change anything either
            have hle : ∀ y, a = some y → y ≤ L := by
              intro y hy; subst hy
              rcases c2 with c2 | c2
              · have : L = y := by simpa [vEq] using c2
                exact this.ge
              · by_contra hlt
                push Not at hlt
                have : vMin (some L) (some y) = some L := by unfold vMin vGt; simp [hlt.le]
                rw [this] at c2
                simp [vEq] at c2
            have := C67_limit_below e1 i a (some L) ha1 (by
              intro y L' h5 h6; cases h6; exact hle y h5)
            simp only at h3
            rw [this] at h3
            cases h3
            exact ⟨(e1, b1), rfl, h4⟩
          · rw [if_neg c2]
            simp only at h3
            exact ⟨(e2, true), by rw [h3, Res.bind_ok], h4⟩)
    rw [Nat.zero_add] at h2
    exact ⟨s'.1, s'.2, h1, fun h => absurd ht h, fun _ => h2.limited hg.wf⟩
  · obtain ⟨s', h1, h2⟩ := Res.foldN_inv (fun k (s : Elt K × Bool) => s = (e, false)) e.lines.length 0 (e, false) rfl
      (f := fun i (s : Elt K × Bool) =>
        Res.at_ s.1.lines i >>= fun (l : LineInfo) =>
        if s.1.type ≠ t then .ok s
        else Res.at_ s.1.outsideLine i >>= fun (o : Bool) =>
          if o ∨ l.name ∈ tags then .ok s
          else Res.at_ s.1.fa i >>= fun ampB =>
            if vEq (some L) ampB = true ∨ vEq (some L) (vMin (some L) ampB) = false then .ok s
            else limit s.1 i (some L) >>= fun r => .ok (r.1, true))
      (by
        rintro i s _ hi rfl
        rw [Nat.zero_add] at hi
        simp only [Res.at_of_lt hi, Res.bind_ok]
        rw [if_pos ht]
        exact ⟨_, rfl, rfl⟩)
    subst h2
    exact ⟨e, false, h1, fun _ => rfl, fun h => absurd h ht⟩

/-- C69, super strong lines: without super strong line of amplitude above -1 nothing changes; otherwise, `m` being the largest
amplitude of a super strong line and `s` the (defined) error of such a line, all the other lines in range of the elements of the
type end up at most at `max(0, m + s)`. -/
theorem C69_super_strong (t : LType) (tags : List String) (es : List (Elt K)) (hg : ∀ e ∈ es, Good e)
    (hstd : ∀ i j x s, SuperLine t tags es i j x s → s ≠ none) :
    ((∀ i j x s, SuperLine t tags es i j x s → x ≤ -1) ∧ superStrong t tags es = .ok (es, false)) ∨
    (∃ m i0 j0 s, -1 < m ∧ SuperLine t tags es i0 j0 m (some s) ∧ (∀ i j x s, SuperLine t tags es i j x s → x ≤ m) ∧
      ∃ es' lg, superStrong t tags es = .ok (es', lg) ∧ es'.length = es.length ∧
        ∀ (j : Nat) e, es[j]? = some e → ∃ e', es'[j]? = some e' ∧
          (e.type ≠ t → e' = e) ∧ (e.type = t → Limited e (m + s) (SelOther tags e) e')) := by
  obtain ⟨p, h1, h2, h3, h4⟩ := highestSuper_spec t tags es (fun e he => (hg e he).wf)
  unfold superStrong
  rw [h1, Res.bind_ok]
  by_cases hp : p.1 = -1
  · left
    refine ⟨fun i j x s hs => hp ▸ h3 i j x s hs, ?_⟩
    rw [if_pos hp]
  · right
    rcases h4 with h4 | ⟨i0, j0, h4⟩
    · exact absurd h4 hp
    · obtain ⟨s, hs⟩ := Option.ne_none_iff_exists'.1 (hstd i0 j0 p.1 p.2 h4)
      rw [hs] at h4
      refine ⟨p.1, i0, j0, s, lt_of_le_of_ne h2 (Ne.symm hp), h4, h3, ?_⟩
      rw [if_neg hp, hs]
      have hv : vAdd (some p.1) (some s) = some (p.1 + s) := rfl
      rw [hv]
      exact fold_set (g := fun e => limitOthers t tags e (some (p.1 + s))) (Q := fun e e' => (e.type ≠ t → e' = e) ∧
        (e.type = t → Limited e (p.1 + s) (SelOther tags e) e')) es (fun e he => limitOthers_spec t tags e (p.1 + s) (hg e he))

/-! ## Only amplitudes change -/

theorem limit_same {e e' : Elt K} {i : Nat} {L : Option K} {b : Bool} (h : limit e i L = .ok (e', b)) : SameElt e e' := by
  unfold limit at h
  obtain ⟨a, _, h⟩ := Res.bind_eq_ok.1 h
  split at h
  · obtain ⟨n, _, h⟩ := Res.bind_eq_ok.1 h
    obtain ⟨r, _, h⟩ := Res.bind_eq_ok.1 h
    obtain ⟨f, _, h⟩ := Res.bind_eq_ok.1 h
    cases h
    exact ⟨_, _, rfl⟩
  · cases h; exact SameElt.refl e

theorem setAmplitude_same {e e' : Elt K} {A s : Option K} (h : setAmplitude e A s = .ok e') : SameElt e e' := by
  unfold setAmplitude at h
  split at h
  · cases h; exact ⟨_, _, rfl⟩
  · obtain ⟨l, _, h⟩ := Res.bind_eq_ok.1 h
    cases h; exact ⟨_, _, rfl⟩

/-- Loop invariant of a loop known to end normally. -/
theorem foldN_ok {σ : Type} {f : Nat → σ → Res σ} (P : σ → Prop) : ∀ (n k : Nat) (s s' : σ), P s →
    (∀ i s s', P s → f i s = .ok s' → P s') → Res.foldN f k n s = .ok s' → P s'
  | 0, k, s, s', h, _, he => by cases he; exact h
  | n + 1, k, s, s', h, hf, he => by
    unfold Res.foldN at he
    obtain ⟨s1, h1, h2⟩ := Res.bind_eq_ok.1 he
    exact foldN_ok P n (k + 1) s1 s' (hf k s s1 h h1) hf h2

theorem limitWeak_same {e e' : Elt K} {L : Option K} {b : Bool} (h : limitWeak e L = .ok (e', b)) : SameElt e e' := by
  unfold limitWeak at h
  refine foldN_ok (fun s : Elt K × Bool => SameElt e s.1) _ _ _ _ (SameElt.refl e) ?_ h
  intro i s s' hs hf
  obtain ⟨o, _, hf⟩ := Res.bind_eq_ok.1 hf
  split at hf
  · cases hf; exact hs
  · obtain ⟨l, _, hf⟩ := Res.bind_eq_ok.1 hf
    split at hf
    · obtain ⟨r, hr, hf⟩ := Res.bind_eq_ok.1 hf
      cases hf
      exact hs.trans (limit_same (b := r.2) hr)
    · cases hf; exact hs

theorem limitOthers_same {t : LType} {tags : List String} {e e' : Elt K} {L : Option K} {b : Bool}
    (h : limitOthers t tags e L = .ok (e', b)) : SameElt e e' := by
  unfold limitOthers at h
  refine foldN_ok (fun s : Elt K × Bool => SameElt e s.1) _ _ _ _ (SameElt.refl e) ?_ h
  intro i s s' hs hf
  obtain ⟨l, _, hf⟩ := Res.bind_eq_ok.1 hf
  split at hf
  · cases hf; exact hs
  · obtain ⟨o, _, hf⟩ := Res.bind_eq_ok.1 hf
    split at hf
    · cases hf; exact hs
    · obtain ⟨a, _, hf⟩ := Res.bind_eq_ok.1 hf
      split at hf
      · cases hf; exact hs
      · obtain ⟨r, hr, hf⟩ := Res.bind_eq_ok.1 hf
        cases hf
        exact hs.trans (limit_same (b := r.2) hr)

theorem ratioCorrect_same {R : K} {es es' : List (Elt K)} {i1 i2 : Nat} {a1 s1 a2 s2 : Option K} {lg : Bool}
    (h : ratioCorrect R es i1 i2 a1 s1 a2 s2 = .ok (es', lg)) : SameList es es' := by
  unfold ratioCorrect at h
  obtain ⟨_, _, h⟩ := Res.bind_eq_ok.1 h
  obtain ⟨_, _, h⟩ := Res.bind_eq_ok.1 h
  obtain ⟨_, _, h⟩ := Res.bind_eq_ok.1 h
  obtain ⟨_, _, h⟩ := Res.bind_eq_ok.1 h
  obtain ⟨e1, h1, h⟩ := Res.bind_eq_ok.1 h
  obtain ⟨e1', h2, h⟩ := Res.bind_eq_ok.1 h
  obtain ⟨e2, h3, h⟩ := Res.bind_eq_ok.1 h
  obtain ⟨e2', h4, h⟩ := Res.bind_eq_ok.1 h
  cases h
  exact (SameList.set (Res.at_eq_ok.1 h1) (setAmplitude_same h2)).trans
    (SameList.set (Res.at_eq_ok.1 h3) (setAmplitude_same h4))

/-- C70: a rule changes nothing but fitted amplitudes and errors: the elements, their lines, nominal amplitudes and ranges stay. -/
theorem C70_only_amplitudes (k : Kind K) (es es' : List (Elt K)) (lg : Bool) (h : k.correct es = .ok (es', lg)) : SameList es es' := by
  cases k with
  | two t a b c =>
    simp only [Kind.correct, twoLines] at h
    split at h
    · cases h; exact SameList.refl _
    · obtain ⟨eA, hA, h⟩ := Res.bind_eq_ok.1 h
      split at h
      · cases h; exact SameList.refl _
      · obtain ⟨eB, hB, h⟩ := Res.bind_eq_ok.1 h
        split at h
        · cases h; exact SameList.refl _
        · split at h
          · cases h; exact SameList.refl _
          · obtain ⟨aA, _, h⟩ := Res.bind_eq_ok.1 h
            obtain ⟨aB, _, h⟩ := Res.bind_eq_ok.1 h
            split at h
            · cases h; exact SameList.refl _
            · split at h
              · obtain ⟨r, hr, h⟩ := Res.bind_eq_ok.1 h
                cases h
                exact SameList.set (Res.at_eq_ok.1 hB) (limit_same (b := r.2) hr)
              · cases h; exact SameList.refl _
  | ratio t a b c =>
    simp only [Kind.correct, ratioRange] at h
    split at h
    · cases h; exact SameList.refl _
    · obtain ⟨eA, hA, h⟩ := Res.bind_eq_ok.1 h
      split at h
      · cases h; exact SameList.refl _
      · split at h
        · cases h; exact SameList.refl _
        · obtain ⟨eB, hB, h⟩ := Res.bind_eq_ok.1 h
          split at h
          · cases h; exact SameList.refl _
          · split at h
            · cases h; exact SameList.refl _
            · split at h
              · cases h; exact SameList.refl _
              · obtain ⟨_, _, h⟩ := Res.bind_eq_ok.1 h
                obtain ⟨_, _, h⟩ := Res.bind_eq_ok.1 h
                obtain ⟨_, _, h⟩ := Res.bind_eq_ok.1 h
                obtain ⟨_, _, h⟩ := Res.bind_eq_ok.1 h
                split at h
                · exact ratioCorrect_same h
                · split at h
                  · exact ratioCorrect_same h
                  · cases h; exact SameList.refl _
  | strongWeak t =>
    simp only [Kind.correct, Rules.strongWeak] at h
    obtain ⟨s, _, h⟩ := Res.bind_eq_ok.1 h
    split at h
    · cases h; exact SameList.refl _
    · obtain ⟨e, _, h⟩ := Res.bind_eq_ok.1 h
      obtain ⟨er, _, h⟩ := Res.bind_eq_ok.1 h
      obtain ⟨a, _, h⟩ := Res.bind_eq_ok.1 h
      split at h
      · cases h
      · split at h
        · cases h
        · refine foldN_ok (fun s : List (Elt K) × Bool => SameList es s.1) _ _ _ _ (SameList.refl es) ?_ h
          intro i s s' hs hf
          obtain ⟨e, he, hf⟩ := Res.bind_eq_ok.1 hf
          split at hf
          · obtain ⟨r, hr, hf⟩ := Res.bind_eq_ok.1 hf
            cases hf
            exact hs.trans (SameList.set (Res.at_eq_ok.1 he) (limitWeak_same (b := r.2) hr))
          · cases hf; exact hs
  | superStrong t tags =>
    simp only [Kind.correct, Rules.superStrong] at h
    obtain ⟨s, _, h⟩ := Res.bind_eq_ok.1 h
    split at h
    · cases h; exact SameList.refl _
    · refine foldN_ok (fun s : List (Elt K) × Bool => SameList es s.1) _ _ _ _ (SameList.refl es) ?_ h
      intro i s s' hs hf
      obtain ⟨e, he, hf⟩ := Res.bind_eq_ok.1 hf
      obtain ⟨r, hr, hf⟩ := Res.bind_eq_ok.1 hf
      cases hf
      exact hs.trans (SameList.set (Res.at_eq_ok.1 he) (limitOthers_same (b := r.2) hr))

/-- C70: the same for the whole regulament. -/
theorem C70_apply_only_amplitudes : ∀ (rs : List (Rule K)) (es es' : List (Elt K)) (lg : List String),
    applyAll rs es = .ok (es', lg) → SameList es es'
  | [], es, es', lg, h => by cases h; exact SameList.refl _
  | r :: rs, es, es', lg, h => by
    unfold applyAll at h
    obtain ⟨o, h1, h⟩ := Res.bind_eq_ok.1 h
    obtain ⟨p, h2, h⟩ := Res.bind_eq_ok.1 h
    cases h
    refine SameList.trans ?_ (C70_apply_only_amplitudes rs o.1 p.1 p.2 h2)
    unfold Rule.apply at h1
    split at h1
    · cases h1; exact SameList.refl _
    · exact C70_only_amplitudes r.kind es o.1 o.2 h1

/-! ## Which rules run -/

/-- C70: the rules run one after the other, the disabled ones being as if they were not there. -/
theorem C70_apply_enabled (rs : List (Rule K)) (es : List (Elt K)) :
    applyAll rs es = applyAll (rs.filter fun r => r.enabled) es := by
  induction rs generalizing es with
  | nil => rfl
  | cons r rs ih =>
    cases h : r.enabled with
    | false =>
      rw [List.filter_cons_of_neg (by simp [h])]
      rw [← ih]
      simp only [applyAll, Rule.apply, h, if_true, Res.bind_ok]
      cases applyAll rs es <;> rfl
    | true =>
      rw [List.filter_cons_of_pos (by simp [h])]
      simp only [applyAll]
      congr 1
      funext o
      rw [ih]

/-- C70: sequential composition. -/
theorem C70_apply_append (rs qs : List (Rule K)) (es : List (Elt K)) :
    applyAll (rs ++ qs) es = (applyAll rs es >>= fun p => applyAll qs p.1 >>= fun q => .ok (q.1, p.2 ++ q.2)) := by
  induction rs generalizing es with
  | nil =>
    simp only [List.nil_append, applyAll, Res.bind_ok]
    cases applyAll qs es <;> rfl
  | cons r rs ih =>
    simp only [List.cons_append, applyAll]
    cases r.apply es with
    | throw e => rfl
    | ub => rfl
    | ok o =>
      simp only [Res.bind_ok, ih]
      cases applyAll rs o.1 with
      | throw e => rfl
      | ub => rfl
      | ok p =>
        simp only [Res.bind_ok]
        cases applyAll qs p.1 with
        | throw e => rfl
        | ub => rfl
        | ok q => simp only [Res.bind_ok]; split <;> rfl

/-- C70: the option selects the rules: all of them for "all", and otherwise those whose name occurs in the option. -/
theorem C70_selection (param : String) (hno : param ≠ "no") :
    (setRulesOption (K := K) param []).map Rule.kind = (table (K := K)).map Rule.kind ∧
    ∀ r ∈ setRulesOption (K := K) param [], (r.enabled = true ↔ param = "all" ∨ r.kind.name.toList <:+: param.toList) := by
  unfold setRulesOption enable
  rw [if_neg hno]
  constructor
  · simp [List.map_map, Function.comp_def]
  · intro r hr
    obtain ⟨r', _, rfl⟩ := List.mem_map.1 hr
    simp [hasSub]

/-- C70: with the option "no" the rules are never run. -/
theorem C70_no (rs : List (Rule K)) (es : List (Elt K)) : applyRules "no" rs es = .ok (es, []) := rfl

/-- C70, negative part: the six Balmer rules meant for absorption lines (tags ending with `A`) look for emission elements:
every Balmer rule of the table leaves every absorption element as it is. -/
theorem C70_balmer_absorption_counterexample (r : Rule K) (hr : r ∈ (table (K := K)))
    (hname : r.kind.name = "balmersingle") (es es' : List (Elt K)) (lg : Bool) (h : r.apply es = .ok (es', lg))
    (j : Nat) (e : Elt K) (he : es[j]? = some e) (ht : e.type = .absorption) : es'[j]? = some e := by
  have key : ∀ (a b : String) (c : K), r.kind = .two .emission a b c → es'[j]? = some e := by
    intro a b c hk
    unfold Rule.apply at h
    split at h
    · cases h; exact he
    · rw [hk] at h
      simp only [Kind.correct, twoLines] at h
      split at h
      · cases h; exact he
      · obtain ⟨eA, hA, h⟩ := Res.bind_eq_ok.1 h
        split at h
        · cases h; exact he
        · rename_i ib lb hfind
          obtain ⟨eB, hB, h⟩ := Res.bind_eq_ok.1 h
          split at h
          · cases h; exact he
          · split at h
            · cases h; exact he
            · obtain ⟨aA, _, h⟩ := Res.bind_eq_ok.1 h
              obtain ⟨aB, _, h⟩ := Res.bind_eq_ok.1 h
              split at h
              · cases h; exact he
              · split at h
                · obtain ⟨r', hr', h⟩ := Res.bind_eq_ok.1 h
                  cases h
                  by_cases hj : ib = j
                  · subst hj
                    rcases C68_find es b .emission with ⟨i', k', e', h1, h2⟩ | ⟨h1, _⟩
                    · rw [hfind] at h1
                      cases h1
                      have := h2.elt.symm.trans he
                      cases this
                      rcases h2.type with h3 | h3
                      · cases h3
                      · rw [ht] at h3; cases h3
                    · rw [hfind] at h1; cases h1
                  · rw [List.getElem?_set_ne hj]; exact he
                · cases h; exact he
  simp only [table, List.mem_cons, List.not_mem_nil, or_false] at hr
  rcases hr with rfl | rfl | rfl | rfl | rfl | rfl | rfl | rfl | rfl | rfl | rfl | rfl | rfl | rfl | rfl | rfl | rfl <;>
    first
    | exact key _ _ _ rfl
    | (simp [Kind.name] at hname)

/-- C70, negative part: setting the option again adds the rules a second time. -/
theorem C70_twice_counterexample (p q : String) :
    (setRulesOption (K := K) q (setRulesOption (K := K) p [])).length = 2 * (setRulesOption (K := K) p []).length := by
  have hl : ∀ (s : String) (rs : List (Rule K)), (setRulesOption s rs).length = rs.length + 17 := by
    intro s rs
    unfold setRulesOption enable
    split <;> simp [table]
  rw [hl, hl]
  simp

/-! ## Examples -/

/-- A single emission line. -/
def exL (name : String) (f : Force) (a s : ℚ) : Elt ℚ :=
  { lines := [⟨name, f⟩], type := .emission, isEmission := true, nominal := [1], fa := [some a], fastd := [some s], absLimit := 1,
    outside := false, outsideLine := [false], gOutside := false, gOutsideLine := [false] }

theorem exL_good (name : String) (f : Force) (a s : ℚ) : Good (exL name f a s) := by
  refine ⟨⟨rfl, rfl, rfl, rfl, rfl⟩, by simp [exL], Or.inr ⟨?_, ?_⟩⟩
  · intro i h
    obtain ⟨hi, _⟩ := List.getElem?_eq_some_iff.1 h
    have : i = 0 := by simp [exL] at hi; omega
    subst this; exact ⟨a, rfl⟩
  · intro i j ni nj xi xj _ _ h3 h4 _ _
    have hi := (List.getElem?_eq_some_iff.1 h3).1
    have hj := (List.getElem?_eq_some_iff.1 h4).1
    have : i = 0 := by simp [exL] at hi; omega
    have : j = 0 := by simp [exL] at hj; omega
    subst i; subst j
    rw [h3] at h4; simp at h4; exact h4.ge

theorem exL_first (pre : List (Elt ℚ)) (post : List (Elt ℚ)) (name : String) (f : Force) (a s : ℚ)
    (h : ∀ e ∈ pre, ∀ l ∈ e.lines, ¬ name.toList <:+: l.name.toList) :
    IsFirst (pre ++ exL name f a s :: post) name .emission pre.length 0 (exL name f a s) where
  elt := by simp
  type := Or.inr rfl
  line := ⟨⟨name, f⟩, rfl, List.infix_refl _⟩
  firstLine := by intro j l hj; omega
  firstElt := by
    intro j e' hj he' _ l hl
    rw [List.getElem?_append_left hj] at he'
    exact h e' (List.mem_of_getElem? he') l hl

/-- `C68_two` on an Hβ line of amplitude 20 next to an Hα line of amplitude 26: brought down to 10. -/
example : ∃ es' lg, twoLines .emission "Halpha" "Hbeta" (1 / (286 / 100) * (11 / 10))
    [exL "Halpha" .strong 26 1, exL "Hbeta" .strong 20 1] = .ok (es', lg) ∧ es'.map (fun e => e.fa) = [[some 26], [some 10]] := by
  obtain ⟨es', lg, h1, h2⟩ := C68_two .emission "Halpha" "Hbeta" (1 / (286 / 100) * (11 / 10) : ℚ)
    [exL "Halpha" .strong 26 1, exL "Hbeta" .strong 20 1] 0 0 1 0 (exL "Halpha" .strong 26 1) (exL "Hbeta" .strong 20 1) 26 20 1
    (exL_first [] [exL "Hbeta" .strong 20 1] "Halpha" .strong 26 1 (by simp))
    (exL_first [exL "Halpha" .strong 26 1] [] "Hbeta" .strong 20 1 (by
      intro e he l hl
      simp only [List.mem_singleton] at he
      subst he
      simp only [exL, List.mem_singleton] at hl
      subst hl
      decide))
    (by decide) rfl rfl rfl rfl rfl (exL_good _ _ _ _).wf rfl (by norm_num)
  refine ⟨es', lg, h1, ?_⟩
  rw [h2]
  norm_num [exL]

/-- `C69_strong_weak` on two strong lines and a weak one: the weak line ends up at most at 20 + 1. -/
example : ∃ es' lg, strongWeak .emission [exL "Halpha" .strong 26 1, exL "Hbeta" .strong 20 1, exL "[NeIII]" .weak 100 3] = .ok (es', lg) ∧
    ∃ e' x, es'[2]? = some e' ∧ e'.fa = [some x] ∧ x ≤ 21 := by
  have hstr : ∀ i j x, Strong .emission [exL "Halpha" .strong 26 1, exL "Hbeta" .strong 20 1, exL "[NeIII]" .weak 100 3] i j x →
      (i = 0 ∧ j = 0 ∧ x = 26) ∨ (i = 1 ∧ j = 0 ∧ x = (20 : ℚ)) := by
    rintro i j x ⟨e, l, h1, _, h3, h4, _, h6⟩
    rcases i with _ | _ | _ | i
    · cases h1
      have hj : j = 0 := by have := (List.getElem?_eq_some_iff.1 h3).1; simp [exL] at this; omega
      subst hj; simp [exL] at h6; exact Or.inl ⟨rfl, rfl, h6.symm⟩
    · cases h1
      have hj : j = 0 := by have := (List.getElem?_eq_some_iff.1 h3).1; simp [exL] at this; omega
      subst hj; simp [exL] at h6; exact Or.inr ⟨rfl, rfl, h6.symm⟩
    · cases h1
      have hj : j = 0 := by have := (List.getElem?_eq_some_iff.1 h3).1; simp [exL] at this; omega
      subst hj; cases h3; cases h4
    · simp at h1
  obtain ⟨m, i0, j0, e0, s, h1, h2, h3, h4, es', lg, h5, h6, h7⟩ := C69_strong_weak .emission
    [exL "Halpha" .strong 26 1, exL "Hbeta" .strong 20 1, exL "[NeIII]" .weak 100 3]
    (by
      intro e he
      simp only [List.mem_cons, List.not_mem_nil, or_false] at he
      rcases he with rfl | rfl | rfl <;> exact exL_good _ _ _ _)
    (by
      intro i j x e h he
      rcases hstr i j x h with ⟨rfl, rfl, _⟩ | ⟨rfl, rfl, _⟩ <;> (cases he; exact ⟨1, rfl⟩))
    ⟨1, 0, 20, exL "Hbeta" .strong 20 1, ⟨"Hbeta", .strong⟩, rfl, rfl, rfl, rfl, rfl, rfl⟩
  have hm : m ≤ 20 := h2 1 0 20 ⟨exL "Hbeta" .strong 20 1, ⟨"Hbeta", .strong⟩, rfl, rfl, rfl, rfl, rfl, rfl⟩
  have hs : m + s ≤ 21 := by
    rcases hstr i0 j0 m h1 with ⟨rfl, rfl, rfl⟩ | ⟨rfl, rfl, rfl⟩
    · norm_num at hm
    · cases h3; simp [exL] at h4; rw [← h4]; norm_num
  refine ⟨es', lg, h5, ?_⟩
  obtain ⟨e', h8, _, h9⟩ := h7 2 (exL "[NeIII]" .weak 100 3) rfl
  have hL := h9 rfl
  obtain ⟨c, hc, he'⟩ := hL.2.2 ⟨0, 100, ⟨rfl, _, rfl, rfl⟩, rfl, by linarith⟩
  refine ⟨e', 1 * c, h8, by rw [he']; rfl, ?_⟩
  have := hL.2.1 0 (1 * c) ⟨rfl, _, rfl, rfl⟩ (by rw [he']; rfl)
  exact this.trans (max_le (by norm_num) hs)

/-- `C70_selection`: the option "balmersingle,strongWeak" enables the rules of these names. -/
example (r : Rule ℚ) (hr : r ∈ setRulesOption "balmersingle,strongWeak" []) :
    r.enabled = true ↔ r.kind.name = "balmersingle" ∨ r.kind.name = "strongWeak" := by
  rw [(C70_selection "balmersingle,strongWeak" (by decide)).2 r hr]
  cases r.kind <;> simp only [Kind.name] <;> decide +kernel

end Rules
end Amazed
