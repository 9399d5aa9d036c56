import Verif.Props.LyaMain
import Mathlib.Data.List.Sort

set_option linter.unusedVariables false
set_option linter.unusedSectionVars false

/-! # C163: profile of Lyman alpha and of the lines under it -/

namespace Amazed
namespace Lya

variable {K : Type} [Field K] [LinearOrder K] [IsStrictOrderedRing K]

theorem lya_igm {es : List (Elt K)} (hw : WF es) {i k : Nat} (h : IsLya es i k) : ∃ q qs, igmIndices es = q :: qs := by
  obtain ⟨e, l, h1, h2, h3, -⟩ := h
  cases hg : igmIndices es with
  | cons q qs => exact ⟨q, qs, rfl⟩
  | nil =>
    exfalso
    have hne : e.asymIdx ≠ [] := by
      intro hn
      rw [(asymIdx_nil (hw e (List.mem_of_getElem? h1))).1 hn l (List.mem_of_getElem? h2)] at h3
      cases h3
    have : (i, e.asymIdx) ∈ igmIndices es := (igm_mem es _).2 ⟨e, h1, rfl, hne⟩
    rw [hg] at this; cases this

theorem lya_congr {a b : List (Elt K)} (ha : WF a) (hb : WF b) (h : a.map (·.asymIdx) = b.map (·.asymIdx)) {i k : Nat} (hl : IsLya a i k) : IsLya b i k := by
  obtain ⟨q, qs, hq⟩ := lya_igm ha hl
  obtain ⟨e, k1, ks, h1, h2, h3, h4⟩ := head_lya ha hq
  rw [igm_congr h] at hq
  obtain ⟨e', k1', ks', g1, g2, g3, g4⟩ := head_lya hb hq
  obtain ⟨rfl, rfl⟩ := lya_unique hl h4
  have : k = k1' := by rw [h3] at h2; rw [g3] at g2; rw [h2] at g2; exact (List.cons.inj g2).1
  rw [this]; exact g4

/-- The SYMIGM lines of the element that are in range. -/
def symLines (s : Search K) (i : Nat) (e : Elt K) : List Nat := (List.range e.lines.length).filter fun k => match e.lines[k]? with
  | some l => l.2.isSymIgm && !s.out i k
  | none => false

/-- The profile of Lyman alpha is asymmetric, free after the options, and in range; `i` is its element. -/
def LyaFitted (x : In K) (es : List (Elt K)) (i : Nat) : Prop :=
  ∃ k e l c, IsLya es i k ∧ es[i]? = some e ∧ e.lines[k]? = some l ∧ l.2.isAsym = true ∧ x.cat l.1 = some c ∧ (convert x.force c).isAsymFit = true ∧ x.s.out i k = false

theorem isAsymFit_symF (cont : Option (Option Nat)) (z : K) (p : Prof K) : (symF cont z p).isAsymFit = p.isAsymFit := by
  cases cont <;> cases p <;> rfl

theorem isSymIgmFit_symF_none (z : K) (p : Prof K) : (symF none z p).isSymIgmFit = p.isSymIgm := by cases p <;> rfl

theorem isSymIgmFit_symF_some (j : Option Nat) (z : K) (p : Prof K) : (symF (some j) z p).isSymIgmFit = false := by cases p <;> rfl

theorem isAsymFit_isAsym {p : Prof K} (h : p.isAsymFit = true) : p.isAsym = true := by cases p <;> first | rfl | cases h

open Classical in
/-- The profiles of the lines of a fit: what each one is, from the catalogue, the options and the searches. -/
theorem C163_profile {x : In K} {es : List (Elt K)} (hw : WF es) (hc : CatOk x.cat es) :
    ∃ (L : List (Nat × List Nat)) (es' : List (Elt K)), run x es = .ok es' ∧ es'.length = es.length ∧ WF es' ∧ es'.map (·.asymIdx) = es.map (·.asymIdx) ∧ (L.map (·.1)).Pairwise (· < ·) ∧
      (∀ q : Nat × List Nat, q ∈ L ↔ x.cont = none ∧ x.s.outE q.1 = false ∧ ∃ e : Elt K, es[q.1]? = some e ∧ q.2 = symLines x.s q.1 e ∧ q.2 ≠ []) ∧
      ∀ i (e : Elt K), es[i]? = some e → ∃ e' : Elt K, es'[i]? = some e' ∧ e'.lines.length = e.lines.length ∧ ∀ k (l : Nat × Prof K), e.lines[k]? = some l →
        ∃ p, e'.lines[k]? = some (l.1, p) ∧
          (l.2.isAsym = false → l.2.isSymIgm = false → p = l.2) ∧
          (∀ ns a b f, l.2 = .symIgm ns a b f →
            (∀ j, x.cont = some j → p = .symIgm ns j (some x.z) false) ∧
            (x.cont = none → i ∈ L.map (·.1) → p = .symIgm ns (x.s.igm L) (some x.z) true) ∧
            (x.cont = none → i ∉ L.map (·.1) → p = .symIgm ns none none true)) ∧
          (l.2.isAsym = true → ∀ c, (if IsLya es i k then (x.cat l.1).map (convert x.force) else some l.2) = some c →
            (c.isAsymFit = false → p = c) ∧
            (∀ ns q t, c = .asymFit ns q t → (LyaFitted x es i → p = .asymFit ns x.s.best t) ∧ (¬ LyaFitted x es i → p = .asymFit ns ⟨2, 0, 0⟩ t))) := by
  obtain ⟨es1, s1, s2, s3, s4, s5⟩ := set_spec (f := x.force) (cont := x.cont) (z := x.z) hw hc
  have hw2 := wf_map (keeps_symF x.cont x.z) s2
  obtain ⟨L, es', f1, f2, f5, f3, f4⟩ := fit_spec (s := x.s) (z := x.z) hw2
  have hlya : ∀ i k, IsLya (es1.map fun e => e.mapP (symF x.cont x.z)) i k ↔ IsLya es i k := by
    intro i k
    rw [lya_map (keeps_symF x.cont x.z)]
    exact ⟨lya_congr s2 hw s3, lya_congr hw s2 s3.symm⟩
  have hback : ∀ (i : Nat) (e1 : Elt K), es1[i]? = some e1 → ∃ e : Elt K, es[i]? = some e := by
    intro i e1 h
    have : i < es.length := by rw [← s4]; exact (List.getElem?_eq_some_iff.1 h).1
    exact ⟨_, List.getElem?_eq_getElem this⟩
  have hfitted : ∀ i, AsymFitted x.s (es1.map fun e => e.mapP (symF x.cont x.z)) i ↔ LyaFitted x es i := by
    intro i
    unfold AsymFitted LyaFitted
    constructor
    · rintro ⟨k, e2, l2, h1, h2, h3, h4, h5⟩
      rw [hlya] at h1
      rw [List.getElem?_map, Option.map_eq_some_iff] at h2
      obtain ⟨e1, g1, rfl⟩ := h2
      rw [mapP_get, Option.map_eq_some_iff] at h3
      obtain ⟨l1, g2, rfl⟩ := h3
      simp only [isAsymFit_symF] at h4
      obtain ⟨e, he⟩ := hback i e1 g1
      obtain ⟨e1', a1, a2, a3, a4⟩ := s5 i e he
      rw [g1] at a1; cases a1
      have hk : k < e.lines.length := by rw [← a3]; exact (List.getElem?_eq_some_iff.1 g2).1
      obtain ⟨p1, b1, b2, b3⟩ := a4 k _ (List.getElem?_eq_getElem hk)
      rw [g2] at b1
      simp only [Option.some.injEq] at b1
      subst b1
      by_cases hL : LyaAsym es i k (e.lines[k]).2
      · obtain ⟨c, c1, c2⟩ := hc i k e _ he (List.getElem?_eq_getElem hk) hL
        refine ⟨k, e, _, c, h1, he, List.getElem?_eq_getElem hk, hL.2, c1, ?_, h5⟩
        rw [← b2 hL c c1]; exact h4
      · exfalso
        have := b3 hL
        simp only at h4
        rw [this] at h4
        exact hL ⟨h1, isAsymFit_isAsym h4⟩
    · rintro ⟨k, e, l, c, h1, h2, h3, h4, h5, h6, h7⟩
      obtain ⟨e1, a1, a2, a3, a4⟩ := s5 i e h2
      obtain ⟨p1, b1, b2, b3⟩ := a4 k l h3
      refine ⟨k, e1.mapP (symF x.cont x.z), (l.1, symF x.cont x.z p1), (hlya i k).2 h1, by rw [List.getElem?_map, a1]; rfl, by rw [mapP_get, b1]; rfl, ?_, h7⟩
      show (symF x.cont x.z p1).isAsymFit = true
      rw [isAsymFit_symF, b2 ⟨h1, h4⟩ c h5]; exact h6
  -- lines kept: kinds
  have hkind : ∀ (i : Nat) (e e1 : Elt K), es[i]? = some e → es1[i]? = some e1 → ∀ k : Nat, (e1.lines[k]?).map (fun l => (l.2.isAsym, l.2.isSymIgm)) = (e.lines[k]?).map (fun l => (l.2.isAsym, l.2.isSymIgm)) := by
    intro i e e1 he he1 k
    obtain ⟨e1', a1, a2, a3, a4⟩ := s5 i e he
    rw [he1] at a1; cases a1
    cases hk : e.lines[k]? with
    | none =>
      have : e1.lines[k]? = none := by rw [List.getElem?_eq_none_iff, a3]; exact List.getElem?_eq_none_iff.1 hk
      rw [this]
    | some l =>
      obtain ⟨p1, b1, b2, b3⟩ := a4 k l hk
      rw [b1]
      simp only [Option.map_some]
      by_cases hL : LyaAsym es i k l.2
      · obtain ⟨c, c1, c2⟩ := hc i k e l he hk hL
        have hx := convert_isAsym x.force c2
        rw [b2 hL c c1]
        have hsym : ∀ p : Prof K, p.isAsym = true → p.isSymIgm = false := by intro p hp; cases p <;> first | rfl | cases hp
        rw [hsym _ hx, hsym _ hL.2, hx, hL.2]
      · rw [b3 hL]
  have hfreeEq : ∀ (i : Nat) (e e1 : Elt K), es[i]? = some e → es1[i]? = some e1 → free x.s i (e1.mapP (symF x.cont x.z)) = if x.cont = none then symLines x.s i e else [] := by
    intro i e e1 he he1
    obtain ⟨e1', a1, a2, a3, a4⟩ := s5 i e he
    rw [he1] at a1; cases a1
    unfold free Elt.filterIdx
    cases hcont : x.cont with
    | some j =>
      rw [if_neg (by simp)]
      rw [List.filter_eq_nil_iff]
      intro k hk
      rw [mapP_get]
      cases e1.lines[k]? with
      | none => simp
      | some q => simp [isSymIgmFit_symF_some]
    | none =>
      rw [if_pos rfl]
      unfold symLines
      have hidx : (e1.mapP (symF none x.z)).asymIdx = (Elt.new e.lines).asymIdx := by
        show e1.asymIdx = _
        rw [a2]
        conv_lhs => rw [hw e (List.mem_of_getElem? he)]
      rw [hidx]
      unfold Elt.new
      simp only [List.filter_filter]
      apply List.filter_congr
      intro k hk
      have hkd := hkind i e e1 he he1 k
      rw [mapP_get]
      cases h : e.lines[k]? with
      | none =>
        rw [h] at hkd
        cases h1 : e1.lines[k]? with
        | none => rfl
        | some q => rw [h1] at hkd; cases hkd
      | some l =>
        rw [h] at hkd
        cases h1 : e1.lines[k]? with
        | none => rw [h1] at hkd; cases hkd
        | some q =>
          rw [h1] at hkd
          simp only [Option.map_some, Option.some.injEq, Prod.mk.injEq] at hkd
          simp only [Option.map_some, isSymIgmFit_symF_none, hkd.2]
          cases l.2.isSymIgm <;> cases l.2.isAsym <;> simp
  have hL : ∀ q : Nat × List Nat, q ∈ L ↔ x.cont = none ∧ x.s.outE q.1 = false ∧ ∃ e : Elt K, es[q.1]? = some e ∧ q.2 = symLines x.s q.1 e ∧ q.2 ≠ [] := by
    intro q
    rw [f3]
    constructor
    · rintro ⟨e2, h1, h2, h3, h4⟩
      rw [List.getElem?_map, Option.map_eq_some_iff] at h1
      obtain ⟨e1, g1, rfl⟩ := h1
      obtain ⟨e, he⟩ := hback q.1 e1 g1
      rw [hfreeEq q.1 e e1 he g1] at h3
      by_cases hn : x.cont = none
      · rw [if_pos hn] at h3
        exact ⟨hn, h2, e, he, h3, h4⟩
      · rw [if_neg hn] at h3; exact absurd h3 h4
    · rintro ⟨hn, h2, e, he, h3, h4⟩
      obtain ⟨e1, a1, -⟩ := s5 q.1 e he
      refine ⟨e1.mapP (symF x.cont x.z), by rw [List.getElem?_map, a1]; rfl, h2, ?_, h4⟩
      rw [hfreeEq q.1 e e1 he a1, if_pos hn]; exact h3
  have hfin : ∀ (i : Nat) (e1 : Elt K), es1[i]? = some e1 → es'[i]? = some (e1.mapP fun p => (if i ∈ L.map (·.1) then Prof.setIgm (x.s.igm L) (some x.z) else id)
        ((if LyaFitted x es i then Prof.setAsym x.s.best else id) (symF x.cont x.z p).reset)) := by
    intro i e1 h
    have := f4 i (e1.mapP (symF x.cont x.z)) (by rw [List.getElem?_map, h]; rfl)
    rw [this, mapP_mapP]
    simp only [hfitted i]
  have hkeep : ∀ i, Keeps fun p : Prof K => (if i ∈ L.map (·.1) then Prof.setIgm (x.s.igm L) (some x.z) else id) ((if LyaFitted x es i then Prof.setAsym x.s.best else id) (symF x.cont x.z p).reset) := by
    intro i p
    have h0 : ((symF x.cont x.z p).reset).isAsym = p.isAsym ∧ ((symF x.cont x.z p).reset).isSymIgm = p.isSymIgm := by
      rw [(keeps_reset _).1, (keeps_reset _).2]; exact keeps_symF x.cont x.z p
    split_ifs
    · simp only [(keeps_setIgm _ _ _).1, (keeps_setIgm _ _ _).2, (keeps_setAsym _ _).1, (keeps_setAsym _ _).2]; exact h0
    · simp only [(keeps_setIgm _ _ _).1, (keeps_setIgm _ _ _).2]; exact h0
    · simp only [id, (keeps_setAsym _ _).1, (keeps_setAsym _ _).2]; exact h0
    · exact h0
  have hget : ∀ (i : Nat) (e' : Elt K), es'[i]? = some e' → ∃ e1 : Elt K, es1[i]? = some e1 ∧ e' = e1.mapP fun p => (if i ∈ L.map (·.1) then Prof.setIgm (x.s.igm L) (some x.z) else id)
        ((if LyaFitted x es i then Prof.setAsym x.s.best else id) (symF x.cont x.z p).reset) := by
    intro i e' h
    have hi : i < es1.length := by
      have := (List.getElem?_eq_some_iff.1 h).1
      rw [f2, List.length_map] at this; exact this
    have h' := hfin i _ (List.getElem?_eq_getElem hi)
    rw [h] at h'
    exact ⟨_, List.getElem?_eq_getElem hi, Option.some.inj h'⟩
  refine ⟨L, es', ?_, by rw [f2, List.length_map, s4], ?_, ?_, f5, hL, ?_⟩
  · unfold run; rw [s1, Res.bind_ok, f1]
  · intro e' he'
    obtain ⟨i, hi⟩ := List.mem_iff_getElem?.1 he'
    obtain ⟨e1, h1, rfl⟩ := hget i e' hi
    exact mapP_wf (hkeep i) (s2 e1 (List.mem_of_getElem? h1))
  · rw [← s3]
    apply List.ext_getElem?
    intro i
    rw [List.getElem?_map, List.getElem?_map]
    cases h : es1[i]? with
    | some e1 => rw [hfin i e1 h]; rfl
    | none =>
      have : es'[i]? = none := by
        rw [List.getElem?_eq_none_iff, f2, List.length_map]; exact List.getElem?_eq_none_iff.1 h
      rw [this]
  · intro i e he
    obtain ⟨e1, a1, a2, a3, a4⟩ := s5 i e he
    refine ⟨_, hfin i e1 a1, ?_, ?_⟩
    · show (e1.lines.map _).length = _
      rw [List.length_map, a3]
    · intro k l hl
      obtain ⟨p1, b1, b2, b3⟩ := a4 k l hl
      refine ⟨_, by rw [mapP_get, b1]; rfl, ?_, ?_, ?_⟩
      · intro h1 h2
        have hnl : ¬ LyaAsym es i k l.2 := by rintro ⟨-, h⟩; rw [h1] at h; cases h
        rw [b3 hnl]
        cases hp : l.2 with
        | sym ns => cases x.cont <;> split_ifs <;> rfl
        | lor ns => cases x.cont <;> split_ifs <;> rfl
        | asym => rw [hp] at h1; cases h1
        | asymFit => rw [hp] at h1; cases h1
        | symIgm => rw [hp] at h2; cases h2
      · intro ns a b f hp
        have hnl : ¬ LyaAsym es i k l.2 := by rintro ⟨-, h⟩; rw [hp] at h; cases h
        rw [b3 hnl, hp]
        refine ⟨?_, ?_, ?_⟩
        · intro j hj
          have hno : i ∉ L.map (·.1) := by
            rintro hm
            obtain ⟨q, q1, -⟩ := List.mem_map.1 hm
            have := ((hL q).1 q1).1
            rw [hj] at this; cases this
          rw [if_neg hno, hj]
          split_ifs <;> rfl
        · intro hn hm
          rw [if_pos hm, hn]
          split_ifs <;> rfl
        · intro hn hm
          rw [if_neg hm, hn]
          split_ifs <;> rfl
      · intro ha c hcc
        have hp1 : p1 = c := by
          by_cases hly : IsLya es i k
          · rw [if_pos hly, Option.map_eq_some_iff] at hcc
            obtain ⟨c0, d1, rfl⟩ := hcc
            exact b2 ⟨hly, ha⟩ c0 d1
          · rw [if_neg hly] at hcc
            rw [b3 (fun h => hly h.1)]
            exact Option.some.inj hcc
        have hca : c.isAsym = true := by
          by_cases hly : IsLya es i k
          · rw [if_pos hly, Option.map_eq_some_iff] at hcc
            obtain ⟨c0, d1, rfl⟩ := hcc
            obtain ⟨c1, e1, e2⟩ := hc i k e l he hl ⟨hly, ha⟩
            rw [e1] at d1; cases d1
            exact convert_isAsym _ e2
          · rw [if_neg hly] at hcc; rw [← Option.some.inj hcc]; exact ha
        rw [hp1]
        constructor
        · intro hnf
          cases c with
          | asym ns q t => cases x.cont <;> split_ifs <;> rfl
          | asymFit => cases hnf
          | _ => cases hca
        · rintro ns q t rfl
          constructor
          · intro hf; rw [if_pos hf]; cases x.cont <;> split_ifs <;> rfl
          · intro hf; rw [if_neg hf]; cases x.cont <;> split_ifs <;> rfl

theorem kinds_of {p : Prof K} : (p.isAsym = false ∧ p.isSymIgm = false) ∨ (∃ ns a b f, p = .symIgm ns a b f) ∨ p.isAsym = true := by
  cases p with
  | sym => exact Or.inl ⟨rfl, rfl⟩
  | lor => exact Or.inl ⟨rfl, rfl⟩
  | asym => exact Or.inr (Or.inr rfl)
  | asymFit => exact Or.inr (Or.inr rfl)
  | symIgm ns a b f => exact Or.inr (Or.inl ⟨ns, a, b, f, rfl⟩)

theorem asym_cases {c : Prof K} (h : c.isAsym = true) : c.isAsymFit = false ∨ ∃ ns q t, c = .asymFit ns q t := by
  cases c with
  | asym => exact Or.inl rfl
  | asymFit ns q t => exact Or.inr ⟨ns, q, t, rfl⟩
  | _ => cases h

theorem eq_of_mem {L M : List (Nat × List Nat)} (hL : (L.map (·.1)).Pairwise (· < ·)) (hM : (M.map (·.1)).Pairwise (· < ·)) (h : ∀ q : Nat × List Nat, q ∈ L ↔ q ∈ M) : L = M := by
  rw [List.pairwise_map] at hL hM
  have ir : Std.Irrefl (fun a b : Nat × List Nat => a.1 < b.1) := ⟨fun a => Nat.lt_irrefl _⟩
  have as : Std.Antisymm (fun a b : Nat × List Nat => a.1 < b.1) := ⟨fun a b h1 h2 => absurd h1 (Nat.lt_asymm h2)⟩
  exact List.Pairwise.eq_of_mem_iff hL hM (fun {q} => h q)

open Classical in
/-- The profiles of a fit do not depend on the fits before it. -/
theorem C163_history {x y : In K} {es es1 : List (Elt K)} (hw : WF es) (hx : CatOk x.cat es) (hy : CatOk y.cat es) (h1 : run x es = .ok es1) :
    run y es1 = run y es := by
  obtain ⟨L, es1', r1, r2, r3, r4, r5, r6, r7⟩ := C163_profile hw hx
  rw [h1] at r1; cases r1
  -- the kinds are kept
  have hk : ∀ (i : Nat) (e : Elt K), es[i]? = some e → ∃ e1 : Elt K, es1[i]? = some e1 ∧ e1.lines.length = e.lines.length ∧ ∀ (k : Nat) (l : Nat × Prof K), e.lines[k]? = some l →
      ∃ p, e1.lines[k]? = some (l.1, p) ∧ p.isAsym = l.2.isAsym ∧ p.isSymIgm = l.2.isSymIgm ∧ (l.2.isAsym = false → l.2.isSymIgm = false → p = l.2) ∧
        (∀ ns a b f, l.2 = .symIgm ns a b f → ∃ a' b' f', p = .symIgm ns a' b' f') ∧
        (¬ IsLya es i k → (∀ ns q t, l.2 = .asym ns q t → p = l.2) ∧ ∀ ns q t, l.2 = .asymFit ns q t → ∃ q', p = .asymFit ns q' t) := by
    intro i e he
    obtain ⟨e1, a1, a2, a3⟩ := r7 i e he
    refine ⟨e1, a1, a2, fun k l hl => ?_⟩
    obtain ⟨p, b1, b2, b3, b4⟩ := a3 k l hl
    refine ⟨p, b1, ?_⟩
    rcases kinds_of (p := l.2) with ⟨g1, g2⟩ | ⟨ns, a, b, f, g⟩ | g
    · rw [b2 g1 g2]
      refine ⟨rfl, rfl, fun _ _ => rfl, fun ns a b f h => ⟨a, b, f, h⟩, fun _ => ⟨fun _ _ _ _ => rfl, fun ns q t h => ⟨q, h⟩⟩⟩
    · obtain ⟨c1, c2, c3⟩ := b3 ns a b f g
      have : ∃ a' b' f', p = Prof.symIgm ns a' b' f' := by
        cases hc : x.cont with
        | some j => exact ⟨_, _, _, c1 j hc⟩
        | none => by_cases hm : i ∈ L.map (·.1)
                  · exact ⟨_, _, _, c2 hc hm⟩
                  · exact ⟨_, _, _, c3 hc hm⟩
      obtain ⟨a', b', f', rfl⟩ := this
      rw [g]
      refine ⟨rfl, rfl, fun _ h => (by cases h), ?_, fun _ => ⟨fun _ _ _ h => (by cases h), fun _ _ _ h => (by cases h)⟩⟩
      intro ns2 a2 b2 f2 h
      injection h with h1 h2 h3 h4
      exact ⟨a', b', f', by rw [h1]⟩
    · have hns : l.2.isSymIgm = false := by cases hp : l.2 <;> first | rfl | (rw [hp] at g; cases g)
      have hp : p.isAsym = true := by
        by_cases hly : IsLya es i k
        · obtain ⟨c, c1, c2⟩ := hx i k e l he hl ⟨hly, g⟩
          obtain ⟨d1, d2⟩ := b4 g (convert x.force c) (by rw [if_pos hly, c1]; rfl)
          rcases asym_cases (convert_isAsym x.force c2) with h | ⟨ns, q, t, h⟩
          · rw [d1 h]; exact convert_isAsym _ c2
          · by_cases hf : LyaFitted x es i
            · rw [(d2 ns q t h).1 hf]; rfl
            · rw [(d2 ns q t h).2 hf]; rfl
        · obtain ⟨d1, d2⟩ := b4 g l.2 (by rw [if_neg hly])
          rcases asym_cases g with h | ⟨ns, q, t, h⟩
          · rw [d1 h]; exact g
          · by_cases hf : LyaFitted x es i
            · rw [(d2 ns q t h).1 hf]; rfl
            · rw [(d2 ns q t h).2 hf]; rfl
      have hps : p.isSymIgm = false := by cases p <;> first | rfl | cases hp
      refine ⟨by rw [hp, g], by rw [hps, hns], fun h => (by rw [g] at h; cases h), fun ns a b f h => (by rw [h] at g; cases g), ?_⟩
      intro hly
      obtain ⟨d1, d2⟩ := b4 g l.2 (by rw [if_neg hly])
      refine ⟨fun ns q t h => d1 (by rw [h]; rfl), fun ns q t h => ?_⟩
      by_cases hf : LyaFitted x es i
      · exact ⟨_, (d2 ns q t h).1 hf⟩
      · exact ⟨_, (d2 ns q t h).2 hf⟩
  have hlya : ∀ i k, IsLya es1 i k ↔ IsLya es i k := fun i k => ⟨lya_congr r3 hw r4, lya_congr hw r3 r4.symm⟩
  have hback : ∀ (i : Nat) (e1 : Elt K), es1[i]? = some e1 → ∃ e : Elt K, es[i]? = some e := by
    intro i e1 h
    have : i < es.length := by rw [← r2]; exact (List.getElem?_eq_some_iff.1 h).1
    exact ⟨_, List.getElem?_eq_getElem this⟩
  -- a line of `es1` comes from a line of `es`
  have hline : ∀ (i : Nat) (e1 : Elt K) (k : Nat) (l1 : Nat × Prof K), es1[i]? = some e1 → e1.lines[k]? = some l1 → ∃ (e : Elt K) (l : Nat × Prof K), es[i]? = some e ∧ e.lines[k]? = some l ∧ l1.1 = l.1 ∧
      l1.2.isAsym = l.2.isAsym := by
    intro i e1 k l1 h1 h2
    obtain ⟨e, he⟩ := hback i e1 h1
    obtain ⟨e1', a1, a2, a3⟩ := hk i e he
    rw [h1] at a1; cases a1
    have hkl : k < e.lines.length := by rw [← a2]; exact (List.getElem?_eq_some_iff.1 h2).1
    obtain ⟨p, b1, b2, -⟩ := a3 k _ (List.getElem?_eq_getElem hkl)
    rw [h2] at b1
    simp only [Option.some.injEq] at b1
    exact ⟨e, _, he, List.getElem?_eq_getElem hkl, by rw [b1], by rw [b1]; exact b2⟩
  have hy1 : CatOk y.cat es1 := by
    rintro i k e1 l1 h1 h2 ⟨h3, h4⟩
    obtain ⟨e, l, c1, c2, c3, c4⟩ := hline i e1 k l1 h1 h2
    rw [c3]
    exact hy i k e l c1 c2 ⟨(hlya i k).1 h3, by rw [← c4]; exact h4⟩
  have hfit : ∀ i, LyaFitted y es1 i ↔ LyaFitted y es i := by
    intro i
    constructor
    · rintro ⟨k, e1, l1, c, h1, h2, h3, h4, h5, h6, h7⟩
      obtain ⟨e, l, c1, c2, c3, c4⟩ := hline i e1 k l1 h2 h3
      exact ⟨k, e, l, c, (hlya i k).1 h1, c1, c2, by rw [← c4]; exact h4, by rw [← c3]; exact h5, h6, h7⟩
    · rintro ⟨k, e, l, c, h1, h2, h3, h4, h5, h6, h7⟩
      obtain ⟨e1, a1, a2, a3⟩ := hk i e h2
      obtain ⟨p, b1, b2, -⟩ := a3 k l h3
      exact ⟨k, e1, _, c, (hlya i k).2 h1, a1, b1, by rw [b2]; exact h4, h5, h6, h7⟩
  have hsym : ∀ (i : Nat) (e e1 : Elt K), es[i]? = some e → es1[i]? = some e1 → symLines y.s i e1 = symLines y.s i e := by
    intro i e e1 he he1
    obtain ⟨e1', a1, a2, a3⟩ := hk i e he
    rw [he1] at a1; cases a1
    unfold symLines
    rw [a2]
    apply List.filter_congr
    intro k hkr
    have hkl := List.mem_range.1 hkr
    obtain ⟨p, b1, b2, b3, -⟩ := a3 k _ (List.getElem?_eq_getElem hkl)
    rw [b1, List.getElem?_eq_getElem hkl]
    simp only [b3]
  obtain ⟨M, es2, s1, s2, s3, s4, s5, s6, s7⟩ := C163_profile r3 hy1
  obtain ⟨N, es3, t1, t2, t3, t4, t5, t6, t7⟩ := C163_profile hw hy
  have hMN : M = N := by
    apply eq_of_mem s5 t5
    intro q
    rw [s6, t6]
    constructor
    · rintro ⟨h1, h2, e1, h3, h4, h5⟩
      obtain ⟨e, he⟩ := hback q.1 e1 h3
      exact ⟨h1, h2, e, he, by rw [← hsym q.1 e e1 he h3]; exact h4, h5⟩
    · rintro ⟨h1, h2, e, h3, h4, h5⟩
      obtain ⟨e1, a1, -⟩ := hk q.1 e h3
      exact ⟨h1, h2, e1, a1, by rw [hsym q.1 e e1 h3 a1]; exact h4, h5⟩
  subst hMN
  rw [s1, t1]
  congr 1
  apply List.ext_getElem?
  intro i
  by_cases hi : i < es.length
  · have he := List.getElem?_eq_getElem hi
    generalize es[i] = e at he
    obtain ⟨e1, a1, a2, a3⟩ := hk i e he
    obtain ⟨e2, c1, c2, c3⟩ := s7 i e1 a1
    obtain ⟨e3, d1, d2, d3⟩ := t7 i e he
    rw [c1, d1]
    congr 1
    have hlines : e2.lines = e3.lines := by
      apply List.ext_getElem?
      intro k
      by_cases hkl : k < e.lines.length
      · have hl := List.getElem?_eq_getElem hkl
        generalize e.lines[k] = l at hl
        obtain ⟨p, b1, b2, b3, b4, b5, b6⟩ := a3 k l hl
        obtain ⟨r, u1, u2, u3, u4⟩ := c3 k _ b1
        obtain ⟨r', v1, v2, v3, v4⟩ := d3 k l hl
        rw [u1, v1]
        have : r = r' := by
          rcases kinds_of (p := l.2) with ⟨g1, g2⟩ | ⟨ns, a, b, f, g⟩ | g
          · rw [u2 (by rw [b2]; exact g1) (by rw [b3]; exact g2), v2 g1 g2]
            exact b4 g1 g2
          · obtain ⟨a', b', f', hp⟩ := b5 ns a b f g
            obtain ⟨w1, w2, w3⟩ := u3 ns a' b' f' hp
            obtain ⟨z1, z2, z3⟩ := v3 ns a b f g
            cases hc : y.cont with
            | some j => rw [w1 j hc, z1 j hc]
            | none => by_cases hm : i ∈ M.map (·.1)
                      · rw [w2 hc hm, z2 hc hm]
                      · rw [w3 hc hm, z3 hc hm]
          · have gp : p.isAsym = true := by rw [b2]; exact g
            by_cases hly : IsLya es i k
            · obtain ⟨c, m1, m2⟩ := hy i k e l he hl ⟨hly, g⟩
              obtain ⟨w1, w2⟩ := u4 gp (convert y.force c) (by rw [if_pos ((hlya i k).2 hly), m1]; rfl)
              obtain ⟨z1, z2⟩ := v4 g (convert y.force c) (by rw [if_pos hly, m1]; rfl)
              rcases asym_cases (convert_isAsym y.force m2) with h | ⟨ns, q, t, h⟩
              · rw [w1 h, z1 h]
              · by_cases hf : LyaFitted y es i
                · rw [(w2 ns q t h).1 ((hfit i).2 hf), (z2 ns q t h).1 hf]
                · rw [(w2 ns q t h).2 (fun h => hf ((hfit i).1 h)), (z2 ns q t h).2 hf]
            · obtain ⟨w1, w2⟩ := u4 gp p (by rw [if_neg (fun h => hly ((hlya i k).1 h))])
              obtain ⟨z1, z2⟩ := v4 g l.2 (by rw [if_neg hly])
              obtain ⟨m1, m2⟩ := b6 hly
              rcases asym_cases g with h | ⟨ns, q, t, h⟩
              · have : p = l.2 := by
                  cases hl2 : l.2 with
                  | asym ns q t => rw [← hl2]; exact m1 ns q t hl2
                  | asymFit => rw [hl2] at h; cases h
                  | _ => rw [hl2] at g; cases g
                rw [w1 (by rw [this]; exact h), z1 h, this]
              · obtain ⟨q', hp⟩ := m2 ns q t h
                by_cases hf : LyaFitted y es i
                · rw [(w2 ns q' t hp).1 ((hfit i).2 hf), (z2 ns q t h).1 hf]
                · rw [(w2 ns q' t hp).2 (fun h => hf ((hfit i).1 h)), (z2 ns q t h).2 hf]
        rw [this]
      · rw [List.getElem?_eq_none_iff.2 (by omega), List.getElem?_eq_none_iff.2 (by omega)]
    rw [s3 e2 (List.mem_of_getElem? c1), t3 e3 (List.mem_of_getElem? d1), hlines]
  · rw [List.getElem?_eq_none_iff.2 (by omega), List.getElem?_eq_none_iff.2 (by omega)]

/-- Lyman alpha is in the model but not in the catalogue: exception. -/
theorem C163_missing {x : In K} {es : List (Elt K)} (hw : WF es) {i k : Nat} {e : Elt K} {l : Nat × Prof K} (hL : IsLya es i k) (he : es[i]? = some e) (hl : e.lines[k]? = some l)
    (ha : l.2.isAsym = true) (hc : x.cat l.1 = none) : run x es = .throw .STD_OUT_OF_RANGE := by
  obtain ⟨q, qs, hq⟩ := lya_igm hw hL
  obtain ⟨e', k', ks, h1, h2, h3, h4⟩ := head_lya hw hq
  obtain ⟨rfl, rfl⟩ := lya_unique hL h4
  rw [he] at h1; cases h1
  unfold run setLyaProfile
  rw [hq]
  simp only
  unfold asymStep
  rw [h2, h3, show Res.at_ (k :: ks) 0 = .ok k from rfl, Res.bind_ok, Res.at_eq_ok.2 he, Res.bind_ok, Res.at_eq_ok.2 hl, Res.bind_ok, if_pos ha]
  unfold setAsymProfile
  rw [Res.at_eq_ok.2 he, Res.bind_ok, Res.at_eq_ok.2 hl, Res.bind_ok, hc]
  rfl

/-- Which profile is fitted in each pass: none in the first one, the options then the kind of the catalogue in the second one, and in the third one nothing is forced fixed. -/
theorem C163_pass (opt f : Force) (p : Prof K) :
    ((convert (setPassMode opt 1 f) p).isAsymFit = false) ∧
    ((convert (setPassMode opt 2 f) p).isAsymFit = true ↔ (p.isAsymFit = true ∧ opt.disable = false) ∨ (p.isAsymFixed = true ∧ opt.fit = true)) ∧
    ((convert (setPassMode opt 3 f) p).isAsymFit = true ↔ p.isAsymFit = true ∨ (p.isAsymFixed = true ∧ f.fit = true)) := by
  obtain ⟨od, of⟩ := opt
  obtain ⟨fd, ff⟩ := f
  refine ⟨?_, ?_, ?_⟩ <;> cases p <;> cases od <;> cases of <;> cases fd <;> cases ff <;> simp [convert, setPassMode, Prof.isAsymFit, Prof.isAsymFixed, Prof.toASYM, Prof.toASYMFIT]

/-- The conversion changes the kind only: width of the support, parameters and centering are those of the catalogue. -/
theorem C163_convert (f : Force) (ns : K) (q : AsymP K) (t : String) :
    (convert f (.asym ns q t) = .asym ns q t ∨ convert f (.asym ns q t) = .asymFit ns q t) ∧
    (convert f (.asymFit ns q t) = .asym ns q t ∨ convert f (.asymFit ns q t) = .asymFit ns q t) := by
  unfold convert
  refine ⟨?_, ?_⟩ <;> simp only [Prof.isAsymFit, Prof.isAsymFixed, Prof.toASYM, Prof.toASYMFIT] <;> split_ifs <;> simp

section Examples

/-- A model: Hα (symmetric), Lyman alpha (fit) and a line under it. -/
def exM : List (Elt ℚ) := [Elt.new [(7, .sym 8)], Elt.new [(1, .asymFit 8 ⟨2, 2, 0⟩ "mean"), (2, .symIgm 8 none none true)]]

def exCat : Nat → Option (Prof ℚ) := fun i => if i = 1 then some (.asymFit 8 ⟨3, 5, 0⟩ "mean") else none

def exSearch : Search ℚ := ⟨fun _ => false, fun _ _ => false, [⟨1, 0, 0⟩, ⟨5, 1, 0⟩], ⟨4, 3, 0⟩, 4, fun _ => some 2⟩

example : WF exM ∧ IsLya exM 1 0 := by
  refine ⟨?_, Elt.new [(1, .asymFit 8 ⟨2, 2, 0⟩ "mean"), (2, .symIgm 8 none none true)], (1, .asymFit 8 ⟨2, 2, 0⟩ "mean"), rfl, rfl, rfl, by omega, ?_⟩
  · intro e he
    rcases List.mem_cons.1 he with rfl | he
    · rfl
    · rcases List.mem_cons.1 he with rfl | he
      · rfl
      · cases he
  · intro i e hi he l hl
    obtain rfl : i = 0 := by omega
    cases he
    rcases List.mem_cons.1 hl with rfl | hl
    · rfl
    · cases hl

/-- The hypothesis on the catalogue is met. -/
example : CatOk exCat exM := by
  rintro i k e l he hl ⟨⟨e', l', h1, h2, h3, -⟩, ha⟩
  have : ∀ e ∈ exM, ∀ l ∈ e.lines, l.2.isAsym = true → ∃ c, exCat l.1 = some c ∧ c.isAsym = true := by
    intro e he l hl ha
    have hcase : l = (1, .asymFit 8 ⟨2, 2, 0⟩ "mean") := by
      simp only [exM, List.mem_cons, List.not_mem_nil, or_false] at he
      rcases he with rfl | rfl
      · simp only [Elt.new, List.mem_cons, List.not_mem_nil, or_false] at hl
        subst hl; cases ha
      · simp only [Elt.new, List.mem_cons, List.not_mem_nil, or_false] at hl
        rcases hl with rfl | rfl
        · rfl
        · cases ha
    subst hcase
    exact ⟨_, rfl, rfl⟩
  exact this e (List.mem_of_getElem? he) l (List.mem_of_getElem? hl) ha

/-- First pass: the asymmetry is the one of the catalogue; the IGM index is that of the continuum. -/
example : run ⟨setPassMode ⟨false, false⟩ 1 ⟨false, false⟩, exCat, some (some 3), 5, exSearch⟩ exM =
    .ok [Elt.new [(7, .sym 8)], Elt.new [(1, .asym 8 ⟨3, 5, 0⟩ "mean"), (2, .symIgm 8 (some 3) (some 5) false)]] := by decide +kernel

/-- Second pass: the asymmetry and the IGM index are those found. -/
example : run ⟨setPassMode ⟨false, false⟩ 2 ⟨true, false⟩, exCat, none, 5, exSearch⟩ exM =
    .ok [Elt.new [(7, .sym 8)], Elt.new [(1, .asymFit 8 ⟨4, 3, 0⟩ "mean"), (2, .symIgm 8 (some 2) (some 5) true)]] := by decide +kernel

/-- The history matters when a catalogue gives Lyman alpha a symmetric profile (a template ratio may: `setAsymProfileAndParams` takes any name, catalog.cpp:174-182): the catalogues of the
fits after it are not applied, as the test is made on the profile in use (lineratiomanager.cpp:105). -/
def exSym : Nat → Option (Prof ℚ) := fun i => if i = 1 then some (.sym 8) else none

theorem C163_sym_sticks : ∃ (x y : In ℚ) (es es1 es2 es3 : List (Elt ℚ)), WF es ∧ CatOk y.cat es ∧ run x es = .ok es1 ∧ run y es1 = .ok es2 ∧ run y es = .ok es3 ∧ es2 ≠ es3 := by
  refine ⟨⟨⟨false, false⟩, exSym, none, 5, exSearch⟩, ⟨⟨false, false⟩, exCat, none, 5, exSearch⟩, [Elt.new [(1, .asymFit 8 ⟨2, 2, 0⟩ "mean")]],
    [⟨[(1, .sym 8)], [0]⟩], [⟨[(1, .sym 8)], [0]⟩], [Elt.new [(1, .asymFit 8 ⟨4, 3, 0⟩ "mean")]], ?_, ?_, by decide +kernel, by decide +kernel, by decide +kernel, by decide +kernel⟩
  · intro e he
    rcases List.mem_cons.1 he with rfl | he
    · rfl
    · cases he
  · rintro i k e l he hl -
    have h1 := List.mem_of_getElem? he
    simp only [List.mem_cons, List.not_mem_nil, or_false] at h1
    subst h1
    have h2 := List.mem_of_getElem? hl
    simp only [Elt.new, List.mem_cons, List.not_mem_nil, or_false] at h2
    subst h2
    exact ⟨_, rfl, rfl⟩

end Examples

end Lya
end Amazed
