import Verif.Props.LyaProps

set_option linter.unusedVariables false
set_option linter.unusedSectionVars false

/-! # Profile of Lyman alpha (C163): the fit -/

namespace Amazed
namespace Lya

variable {K : Type} [Field K] [LinearOrder K] [IsStrictOrderedRing K]

theorem convert_isAsym (f : Force) {p : Prof K} (h : p.isAsym = true) : (convert f p).isAsym = true := by
  unfold convert
  split_ifs with h1 h2
  · cases p <;> first | rfl | cases h
  · cases p <;> first | rfl | cases h
  · exact h

/-- The line is Lyman alpha with an asymmetric profile. -/
def LyaAsym (es : List (Elt K)) (i k : Nat) (p : Prof K) : Prop := IsLya es i k ∧ p.isAsym = true

/-- The catalogue has an asymmetric profile for Lyman alpha if the model has one. -/
def CatOk (cat : Nat → Option (Prof K)) (es : List (Elt K)) : Prop :=
  ∀ i k e l, es[i]? = some e → e.lines[k]? = some l → LyaAsym es i k l.2 → ∃ c, cat l.1 = some c ∧ c.isAsym = true

theorem set_wf {e : Elt K} (he : e = Elt.new e.lines) {k : Nat} {l : Nat × Prof K} (hl : e.lines[k]? = some l) (ha : l.2.isAsym = true) {p : Prof K} (hp : p.isAsym = true) :
    ({ e with lines := e.lines.set k (l.1, p) } : Elt K) = Elt.new (e.lines.set k (l.1, p)) := by
  have : (Elt.new (e.lines.set k (l.1, p))).asymIdx = e.asymIdx := by
    conv_rhs => rw [he]
    unfold Elt.new
    simp only [List.length_set]
    apply List.filter_congr
    intro j hj
    by_cases hjk : j = k
    · subst hjk
      rw [List.getElem?_set_self (List.getElem?_eq_some_iff.1 hl).1, hl]
      simp only
      rw [ha, hp]; rfl
    · rw [List.getElem?_set_ne (fun e => hjk e.symm)]
  exact wf_of (a := ({ e with lines := e.lines.set k (l.1, p) } : Elt K)) this

theorem set_spec {f : Force} {cat : Nat → Option (Prof K)} {cont : Option (Option Nat)} {z : K} {es : List (Elt K)} (hw : WF es) (hc : CatOk cat es) :
    ∃ es1, setLyaProfile f cat cont z es = .ok (es1.map fun e => e.mapP (symF cont z)) ∧ WF es1 ∧ es1.map (·.asymIdx) = es.map (·.asymIdx) ∧ es1.length = es.length ∧
      ∀ i e, es[i]? = some e → ∃ e1, es1[i]? = some e1 ∧ e1.asymIdx = e.asymIdx ∧ e1.lines.length = e.lines.length ∧ ∀ k l, e.lines[k]? = some l →
        ∃ p1, e1.lines[k]? = some (l.1, p1) ∧ (LyaAsym es i k l.2 → ∀ c, cat l.1 = some c → p1 = convert f c) ∧ (¬ LyaAsym es i k l.2 → p1 = l.2) := by
  have same : ∀ {es1 : List (Elt K)}, es1 = es → (∀ i k e l, es[i]? = some e → e.lines[k]? = some l → ¬ LyaAsym es i k l.2) →
      WF es1 ∧ es1.map (·.asymIdx) = es.map (·.asymIdx) ∧ es1.length = es.length ∧
      ∀ i e, es[i]? = some e → ∃ e1, es1[i]? = some e1 ∧ e1.asymIdx = e.asymIdx ∧ e1.lines.length = e.lines.length ∧ ∀ k l, e.lines[k]? = some l →
        ∃ p1, e1.lines[k]? = some (l.1, p1) ∧ (LyaAsym es i k l.2 → ∀ c, cat l.1 = some c → p1 = convert f c) ∧ (¬ LyaAsym es i k l.2 → p1 = l.2) := by
    rintro es1 rfl hn
    exact ⟨hw, rfl, rfl, fun i e he => ⟨e, he, rfl, rfl, fun k l hl => ⟨l.2, hl, fun h => absurd h (hn i k e l he hl), fun _ => rfl⟩⟩⟩
  unfold setLyaProfile
  cases hg : igmIndices es with
  | nil =>
    simp only
    have hno : ∀ e ∈ es, ∀ l ∈ e.lines, l.2.igm = false := by
      intro e he
      rw [← asymIdx_nil (hw e he)]
      by_contra hne
      obtain ⟨i, hi⟩ := List.mem_iff_getElem?.1 he
      have : (i, e.asymIdx) ∈ igmIndices es := (igm_mem es _).2 ⟨e, hi, rfl, hne⟩
      rw [hg] at this; cases this
    refine ⟨es, ?_, same rfl ?_⟩
    · congr 1
      conv_lhs => rw [← List.map_id es]
      apply List.map_congr_left
      intro e he
      rw [mapP_id]
      · rfl
      · intro l hl
        apply fixes_symF
        have := hno e he l hl
        unfold Prof.igm at this
        rw [Bool.or_eq_false_iff] at this
        exact this.2
    · rintro i k e l he hl ⟨-, h2⟩
      have := hno e (List.mem_of_getElem? he) l (List.mem_of_getElem? hl)
      unfold Prof.igm at this
      rw [h2] at this; cases this
  | cons q qs =>
    simp only
    obtain ⟨e, k, ks, h1, h2, h3, h4⟩ := head_lya hw hg
    have hwe := hw e (List.mem_of_getElem? h1)
    obtain ⟨e', l, g1, g2, g3, g4, g5⟩ := id h4
    rw [h1] at g1; cases g1
    unfold asymStep
    rw [h2, h3, show Res.at_ (k :: ks) 0 = .ok k from rfl, Res.bind_ok, Res.at_eq_ok.2 h1, Res.bind_ok, Res.at_eq_ok.2 g2, Res.bind_ok]
    by_cases ha : l.2.isAsym = true
    · rw [if_pos ha]
      obtain ⟨c, c1, c2⟩ := hc q.1 k e l h1 g2 ⟨h4, ha⟩
      unfold setAsymProfile
      rw [Res.at_eq_ok.2 h1, Res.bind_ok, Res.at_eq_ok.2 g2, Res.bind_ok, c1]
      simp only
      rw [Res.bind_ok]
      have hnew := set_wf hwe g2 ha (convert_isAsym f c2)
      have hidx : (es.set q.1 { e with lines := e.lines.set k (l.1, convert f c) }).map (·.asymIdx) = es.map (·.asymIdx) := by
        rw [List.map_set]
        apply List.ext_getElem?
        intro j
        by_cases hj : j = q.1
        · subst hj
          rw [List.getElem?_set_self (by rw [List.length_map]; exact (List.getElem?_eq_some_iff.1 h1).1), List.getElem?_map, h1]
          rfl
        · rw [List.getElem?_set_ne (fun e => hj e.symm)]
      have hw1 : WF (es.set q.1 { e with lines := e.lines.set k (l.1, convert f c) }) := by
        intro a ha'
        rcases List.mem_or_eq_of_mem_set ha' with h | rfl
        · exact hw a h
        · exact hnew
      refine ⟨es.set q.1 { e with lines := e.lines.set k (l.1, convert f c) }, ?_, hw1, hidx, by simp, ?_⟩
      · rw [← hg, ← igm_congr hidx, symIgm_fold cont z _ hw1]
      · intro i a hi
        by_cases hiq : i = q.1
        · subst hiq
          rw [h1] at hi; cases hi
          refine ⟨_, List.getElem?_set_self (List.getElem?_eq_some_iff.1 h1).1, rfl, by simp, ?_⟩
          intro j l' hl'
          by_cases hjk : j = k
          · subst hjk
            rw [g2] at hl'; cases hl'
            refine ⟨_, List.getElem?_set_self (List.getElem?_eq_some_iff.1 g2).1, ?_, fun h => absurd ⟨h4, ha⟩ h⟩
            intro _ c' hc'
            rw [c1] at hc'; cases hc'; rfl
          · refine ⟨l'.2, by rw [List.getElem?_set_ne (fun e => hjk e.symm)]; exact hl', ?_, fun _ => rfl⟩
            rintro ⟨hl, -⟩
            exact absurd (lya_unique hl h4).2 hjk
        · refine ⟨a, by rw [List.getElem?_set_ne (fun e => hiq e.symm)]; exact hi, rfl, rfl, ?_⟩
          intro j l' hl'
          refine ⟨l'.2, hl', ?_, fun _ => rfl⟩
          rintro ⟨hl, -⟩
          exact absurd (lya_unique hl h4).1 hiq
    · rw [if_neg ha, Res.bind_ok]
      refine ⟨es, by rw [← hg, symIgm_fold cont z es hw], same rfl ?_⟩
      rintro i k' e' l' he' hl' ⟨hl, ha'⟩
      obtain ⟨rfl, rfl⟩ := lya_unique hl h4
      rw [h1] at he'; cases he'
      rw [g2] at hl'; cases hl'
      exact ha ha'

/-- The lines of the IGM index fit of an element: those with a free IGM index in range. -/
def free (s : Search K) (i : Nat) (e : Elt K) : List Nat := e.filterIdx (fun k p => p.isSymIgmFit && !s.out i k) e.asymIdx

/-- Lyman alpha is fitted: it is asymmetric, free and in range; `i` is its element. -/
def AsymFitted (s : Search K) (es : List (Elt K)) (i : Nat) : Prop := ∃ k e l, IsLya es i k ∧ es[i]? = some e ∧ e.lines[k]? = some l ∧ l.2.isAsymFit = true ∧ s.out i k = false

theorem lya_map {f : Prof K → Prof K} (hf : Keeps f) (es : List (Elt K)) (i k : Nat) : IsLya (es.map fun e => e.mapP f) i k ↔ IsLya es i k := by
  have hg : ∀ p : Prof K, (f p).igm = p.igm := fun p => by unfold Prof.igm; rw [(hf p).1, (hf p).2]
  unfold IsLya
  constructor
  · rintro ⟨e, l, h1, h2, h3, h4, h5⟩
    rw [List.getElem?_map, Option.map_eq_some_iff] at h1
    obtain ⟨e0, g1, rfl⟩ := h1
    rw [mapP_get, Option.map_eq_some_iff] at h2
    obtain ⟨l0, g2, rfl⟩ := h2
    refine ⟨e0, l0, g1, g2, by rw [← hg]; exact h3, ?_, ?_⟩
    · intro k' l' hk hl'
      have := h4 k' (l'.1, f l'.2) hk (by rw [mapP_get, hl']; rfl)
      rwa [hg] at this
    · intro i' e' hi he' l' hl'
      have := h5 i' (e'.mapP f) hi (by rw [List.getElem?_map, he']; rfl) (l'.1, f l'.2) (List.mem_map.2 ⟨l', hl', rfl⟩)
      rwa [hg] at this
  · rintro ⟨e, l, h1, h2, h3, h4, h5⟩
    refine ⟨e.mapP f, (l.1, f l.2), by rw [List.getElem?_map, h1]; rfl, by rw [mapP_get, h2]; rfl, by rw [hg]; exact h3, ?_, ?_⟩
    · intro k' l' hk hl'
      rw [mapP_get, Option.map_eq_some_iff] at hl'
      obtain ⟨l0, g2, rfl⟩ := hl'
      rw [hg]; exact h4 k' l0 hk g2
    · intro i' e' hi he' l' hl'
      rw [List.getElem?_map, Option.map_eq_some_iff] at he'
      obtain ⟨e0, g1, rfl⟩ := he'
      obtain ⟨l0, g2, rfl⟩ := List.mem_map.1 hl'
      rw [hg]; exact h5 i' e0 hi g1 l0 g2

theorem filterIdx_mapP {f : Prof K → Prof K} (c : Nat → Prof K → Bool) (hc : ∀ k p, c k (f p) = c k p) (e : Elt K) (l : List Nat) : (e.mapP f).filterIdx c l = e.filterIdx c l := by
  unfold Elt.filterIdx
  apply List.filter_congr
  intro k _
  rw [mapP_get]
  cases e.lines[k]? with
  | none => rfl
  | some q => exact hc k q.2

theorem isSymIgmFit_reset (p : Prof K) : p.reset.isSymIgmFit = p.isSymIgmFit := by
  cases p with
  | symIgm ns i z fit => cases fit <;> rfl
  | _ => rfl

theorem isSymIgmFit_setAsym (q : AsymP K) (p : Prof K) : (p.setAsym q).isSymIgmFit = p.isSymIgmFit := by cases p <;> rfl

theorem isAsymFit_reset (p : Prof K) : p.reset.isAsymFit = p.isAsymFit := by
  cases p with
  | symIgm ns i z fit => cases fit <;> rfl
  | _ => rfl

open Classical in
theorem fit_spec {s : Search K} {z : K} {es : List (Elt K)} (hw : WF es) :
    ∃ (L : List (Nat × List Nat)) (es' : List (Elt K)), initFit s z es = .ok es' ∧ es'.length = es.length ∧ (L.map (·.1)).Pairwise (· < ·) ∧
      (∀ q : Nat × List Nat, q ∈ L ↔ ∃ e : Elt K, es[q.1]? = some e ∧ s.outE q.1 = false ∧ q.2 = free s q.1 e ∧ q.2 ≠ []) ∧
      ∀ i (e : Elt K), es[i]? = some e → es'[i]? = some (e.mapP fun p => (if i ∈ L.map (·.1) then Prof.setIgm (s.igm L) (some z) else id)
        ((if AsymFitted s es i then Prof.setAsym s.best else id) p.reset)) := by
  have h3 : (es.map fun e => e.onAsym Prof.reset) = es.map fun e => e.mapP Prof.reset := by
    apply List.map_congr_left
    intro e he
    exact onAsym_eq fixes_reset (hw e he)
  have hw3 := wf_map keeps_reset hw
  unfold initFit
  rw [h3]
  unfold fitLyaProfile
  rw [igm_map]
  cases hg : igmIndices es with
  | nil =>
    simp only
    have hnil : ∀ e ∈ es, e.asymIdx = [] := by
      intro e he
      by_contra hne
      obtain ⟨i, hi⟩ := List.mem_iff_getElem?.1 he
      have : (i, e.asymIdx) ∈ igmIndices es := (igm_mem es _).2 ⟨e, hi, rfl, hne⟩
      rw [hg] at this; cases this
    refine ⟨[], _, rfl, by simp, by simp, ?_, ?_⟩
    · intro q
      simp only [List.not_mem_nil, false_iff]
      rintro ⟨e, h1, h2, h4, h5⟩
      apply h5
      rw [h4]
      unfold free Elt.filterIdx
      rw [hnil e (List.mem_of_getElem? h1)]
      rfl
    · intro i e he
      rw [List.getElem?_map, he, Option.map_some, if_neg (by simp)]
      congr 1
      apply mapP_congr
      intro l hl
      have : ¬ AsymFitted s es i := by
        rintro ⟨k, e', l', ⟨e1, l1, a1, a2, a3, _⟩, _⟩
        rw [(asymIdx_nil (hw e1 (List.mem_of_getElem? a1))).1 (hnil e1 (List.mem_of_getElem? a1)) l1 (List.mem_of_getElem? a2)] at a3
        cases a3
      rw [if_neg this]; rfl
  | cons q qs =>
    simp only
    obtain ⟨e, k, ks, h1, h2, h4, h5⟩ := head_lya hw hg
    have hwe := hw e (List.mem_of_getElem? h1)
    obtain ⟨e', l, g1, g2, g3, g4, g5⟩ := id h5
    rw [h1] at g1; cases g1
    have r1 : (es.map fun e => e.mapP Prof.reset)[q.1]? = some (e.mapP Prof.reset) := by rw [List.getElem?_map, h1]; rfl
    have r2 : (e.mapP Prof.reset).lines[k]? = some (l.1, l.2.reset) := by rw [mapP_get, g2]; rfl
    -- after the fit of the asymmetry
    have hA : ∃ es4 : List (Elt K), fitAsym s (es.map fun e => e.mapP Prof.reset) q = .ok es4 ∧ es4.length = es.length ∧
        ∀ i (e : Elt K), es[i]? = some e → es4[i]? = some (e.mapP fun p => (if AsymFitted s es i then Prof.setAsym s.best else id) p.reset) := by
      unfold fitAsym
      rw [h2, h4, show Res.at_ (k :: ks) 0 = .ok k from rfl, Res.bind_ok, Res.at_eq_ok.2 r1, Res.bind_ok, Res.at_eq_ok.2 r2, Res.bind_ok]
      simp only [isAsymFit_reset]
      by_cases hf : l.2.isAsymFit = true ∧ s.out q.1 k = false
      · rw [if_pos hf]
        refine ⟨_, rfl, by simp, ?_⟩
        intro i a hi
        by_cases hiq : i = q.1
        · subst hiq
          rw [h1] at hi; cases hi
          rw [List.getElem?_modify_eq, r1]
          show some _ = _
          beta_reduce
          rw [trials_eq _ _ _ (mapP_wf keeps_reset hwe), mapP_mapP, if_pos ⟨k, e, l, h5, h1, g2, hf.1, hf.2⟩]
        · rw [List.getElem?_modify_ne _ _ (fun e => hiq e.symm), List.getElem?_map, hi, if_neg]
          · rfl
          · rintro ⟨k', _, _, hl, _⟩
            exact hiq (lya_unique hl h5).1
      · rw [if_neg hf]
        refine ⟨_, rfl, by simp, ?_⟩
        intro i a hi
        rw [List.getElem?_map, hi, if_neg]
        · rfl
        · rintro ⟨k', e', l', hl, b1, b2, b3, b4⟩
          obtain ⟨rfl, rfl⟩ := lya_unique hl h5
          rw [h1] at b1; cases b1
          rw [g2] at b2; cases b2
          exact hf ⟨b3, b4⟩
    obtain ⟨es4, a1, a2, a3⟩ := hA
    rw [a1, Res.bind_ok]
    have hkeep : ∀ i, Keeps fun p : Prof K => (if AsymFitted s es i then Prof.setAsym s.best else id) p.reset := by
      intro i p
      split_ifs
      · rw [(keeps_setAsym s.best _).1, (keeps_setAsym s.best _).2]; exact keeps_reset p
      · exact keeps_reset p
    have hfree : ∀ i (e : Elt K), es[i]? = some e → ∃ e4 : Elt K, es4[i]? = some e4 ∧ e4 = Elt.new e4.lines ∧ e4.filterIdx (fun k p => p.isSymIgmFit && !s.out i k) e.asymIdx = free s i e := by
      intro i a hi
      refine ⟨_, a3 i a hi, mapP_wf (hkeep i) (hw a (List.mem_of_getElem? hi)), ?_⟩
      unfold free
      apply filterIdx_mapP
      intro k' p
      by_cases hf : AsymFitted s es i
      · simp only [if_pos hf, isSymIgmFit_setAsym, isSymIgmFit_reset]
      · simp only [if_neg hf, id, isSymIgmFit_reset]
    have hL : ∀ r : Nat × List Nat, r ∈ (q :: qs).filterMap (toFit s es4) ↔ ∃ e : Elt K, es[r.1]? = some e ∧ s.outE r.1 = false ∧ r.2 = free s r.1 e ∧ r.2 ≠ [] := by
      intro r
      rw [← hg, List.mem_filterMap]
      constructor
      · rintro ⟨w, w1, w2⟩
        obtain ⟨a, b1, b2, b3⟩ := (igm_mem es w).1 w1
        obtain ⟨a4, c1, c2, c3⟩ := hfree w.1 a b1
        unfold toFit at w2
        rw [c1] at w2
        by_cases ho : s.outE w.1 = true
        · rw [if_pos ho] at w2; cases w2
        · rw [if_neg ho] at w2
          simp only [b2, c3] at w2
          split_ifs at w2 with hem
          cases w2
          exact ⟨a, b1, by simpa using ho, rfl, by simpa using hem⟩
      · rintro ⟨a, b1, b2, b3, b4⟩
        obtain ⟨a4, c1, c2, c3⟩ := hfree r.1 a b1
        refine ⟨(r.1, a.asymIdx), (igm_mem es _).2 ⟨a, b1, rfl, ?_⟩, ?_⟩
        · intro hn
          apply b4
          rw [b3]
          unfold free Elt.filterIdx
          rw [hn]; rfl
        · unfold toFit
          simp only
          rw [if_neg (by rw [b2]; simp), c1]
          simp only
          rw [c3, ← b3, if_neg (by simpa using b4)]
    have hnd : (((q :: qs).filterMap (toFit s es4)).map (·.1)).Pairwise (· < ·) := by
      have hsub : ∀ l : List (Nat × List Nat), ((l.filterMap (toFit s es4)).map (·.1)).Sublist (l.map (·.1)) := by
        intro l
        induction l with
        | nil => simp
        | cons w l ih =>
          cases hw' : toFit s es4 w with
          | none => rw [List.filterMap_cons_none hw', List.map_cons]; exact ih.cons _
          | some r =>
            rw [List.filterMap_cons_some hw', List.map_cons, List.map_cons]
            have : r.1 = w.1 := by
              unfold toFit at hw'
              split_ifs at hw'
              cases hes : es4[w.1]? with
              | none => rw [hes] at hw'; cases hw'
              | some a =>
                rw [hes] at hw'
                simp only at hw'
                split_ifs at hw'
                cases hw'; rfl
            rw [this]
            exact ih.cons_cons _
      have := (hsub (q :: qs))
      rw [← hg] at this ⊢
      exact (igm_sorted es).sublist this
    generalize hLd : (q :: qs).filterMap (toFit s es4) = L at hL hnd
    obtain ⟨f1, f2, f3⟩ := foldl_modify (fun _ e => ((List.range s.count).foldl (fun e i => e.onAsym (Prof.setIgm (some i) (some z))) e).onAsym (Prof.setIgm (s.igm L) (some z))) L es4 (hnd.imp fun h => Nat.ne_of_lt h)
    refine ⟨L, _, rfl, ?_, hnd, hL, ?_⟩
    · unfold fitIgm; rw [f1, a2]
    · intro i a hi
      unfold fitIgm
      obtain ⟨a4, c1, c2, _⟩ := hfree i a hi
      have c1' := a3 i a hi
      by_cases hm : i ∈ L.map (·.1)
      · obtain ⟨r, r1, r2⟩ := List.mem_map.1 hm
        subst r2
        rw [f2 r r1, c1]
        show some _ = _
        rw [c1] at c1'
        simp only [Option.some.injEq] at c1'
        beta_reduce
        rw [igmTrials_eq _ _ _ _ c2, c1', mapP_mapP, if_pos hm]
      · rw [f3 i (fun r hr e => hm (by rw [← e]; exact List.mem_map_of_mem hr)), c1', if_neg hm]
        rfl

end Lya
end Amazed
