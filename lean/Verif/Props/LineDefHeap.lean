import Verif.Props.LineDefSpec

set_option linter.unusedVariables false
set_option linter.unusedSectionVars false
set_option linter.unusedSimpArgs false

/-! # The calls on one catalogue, in the heap -/

namespace Amazed
namespace LineDef
open Amp (LType Force)
open LineCat (mapPut mapFind string2Type string2Force Keyed mapPut_keyed mapFind_mem mapFind_put mapPut_append mapPut_keys)
open Lya (AsymP)

variable {K : Type} [Field K] [LinearOrder K]

theorem alloc_old (h : Heap K) (v : Prof K) {a : Nat} (ha : a < h.length) : (alloc h v)[a]? = h[a]? := by
  unfold alloc; rw [List.getElem?_append_left ha]

theorem alloc_new (h : Heap K) (v : Prof K) : (alloc h v)[h.length]? = some (some v) := by
  unfold alloc; rw [List.getElem?_append_right (Nat.le_refl _)]; simp

theorem alloc_len (h : Heap K) (v : Prof K) : (alloc h v).length = h.length + 1 := by simp [alloc]

theorem alloc_cell (h : Heap K) (v : Prof K) {a : Nat} {w : Prof K} (e : (alloc h v)[a]? = some (some w)) : (a = h.length ∧ w = v) ∨ (a < h.length ∧ h[a]? = some (some w)) := by
  have := lt_of_cell e
  rw [alloc_len] at this
  rcases Nat.lt_or_ge a h.length with h' | h'
  · right; rw [alloc_old h v h'] at e; exact ⟨h', e⟩
  · left
    have : a = h.length := by omega
    subst this
    rw [alloc_new] at e
    cases e; exact ⟨rfl, rfl⟩

/-- A heap after the making of `v` and the deletion of the cell `f`. -/
structure Swap (h : Heap K) (v : Prof K) (f : Option Nat) (h' : Heap K) : Prop where
  len : h'.length = h.length + 1
  new : h'[h.length]? = some (some v)
  gone : ∀ a, f = some a → h'[a]? = some none
  old : ∀ a < h.length, f ≠ some a → h'[a]? = h[a]?

theorem swap_free (h : Heap K) (v : Prof K) (f : Option Nat) (hf : ∀ a, f = some a → ∃ w, h[a]? = some (some w)) :
    ∃ h', free (alloc h v) f = .ok h' ∧ Swap h v f h' := by
  cases f with
  | none =>
    refine ⟨alloc h v, rfl, alloc_len h v, alloc_new h v, ?_, ?_⟩
    · intro a e; cases e
    · intro a ha _; exact alloc_old h v ha
  | some a =>
    obtain ⟨w, hw⟩ := hf a rfl
    have ha := lt_of_cell hw
    refine ⟨(alloc h v).set a none, free_cell (v := w) (by rw [alloc_old h v ha, hw]), ?_, ?_, ?_, ?_⟩
    · rw [List.length_set, alloc_len]
    · rw [List.getElem?_set_ne (by omega), alloc_new]
    · intro b e; cases e
      rw [List.getElem?_set_self (by rw [alloc_len]; omega)]
    · intro b hb e
      rw [List.getElem?_set_ne (by intro e'; exact e (by rw [e'])), alloc_old h v hb]

theorem Swap.cell {h : Heap K} {v : Prof K} {f : Option Nat} {h' : Heap K} (s : Swap h v f h') {a : Nat} {w : Prof K} (e : h'[a]? = some (some w)) :
    a = h.length ∨ (h[a]? = some (some w) ∧ f ≠ some a) := by
  have hl := lt_of_cell e
  rw [s.len] at hl
  rcases Nat.lt_or_ge a h.length with c | c
  · right
    by_cases hf : f = some a
    · rw [s.gone a hf] at e; cases e
    · rw [s.old a c hf] at e; exact ⟨e, hf⟩
  · left; omega

theorem putLine_good {h : Heap K} {m : Lines K} {mv} (g : Good h m mv) (id : ℤ) (src : Ln K) {b : Nat} {v : Prof K} (hb : src.prof = some b) (hv : h[b]? = some (some v)) :
    ∃ q : Heap K × Lines K, putLine id src h m = .ok q ∧ Good q.1 q.2 (mapPut id (src.withProf v) mv) ∧ Foot h m q.1 q.2 ∧ Owns q.2 h.length ∧
      (∀ a v, q.1[a]? = some (some v) → a = h.length ∨ h[a]? = some (some v)) := by
  have hd : ∀ a, ((mapFind id m).getD Ln.default).prof = some a → ∃ d, (id, d) ∈ m ∧ d.prof = some a := by
    intro a ha
    cases hm : mapFind id m with
    | none => rw [hm] at ha; cases ha
    | some d =>
      rw [hm] at ha
      exact ⟨d, (mapFind_mem g.keyed id d).1 hm, ha⟩
  have hd' : ∀ x ∈ m, x.1 = id → ((mapFind id m).getD Ln.default).prof = x.2.prof := by
    intro x hx e
    have : mapFind id m = some x.2 := (mapFind_mem g.keyed id x.2).2 (by rw [← e]; exact hx)
    rw [this]; rfl
  obtain ⟨h', e1, sw⟩ := swap_free h v ((mapFind id m).getD Ln.default).prof (by
    intro a ha
    obtain ⟨d, hd1, hd2⟩ := hd a ha
    obtain ⟨a', w, h1, h2⟩ := g.null hd1
    simp only at h1
    rw [hd2] at h1; cases h1
    exact ⟨w, h2⟩)
  refine ⟨(h', mapPut id { src with prof := some h.length } m), ?_, ?_, ?_, ?_, ?_⟩
  · unfold putLine assign
    rw [hb, read_cell hv, Res.bind_ok, e1, Res.bind_ok, Res.bind_ok]
  · refine ⟨?_, ?_, mapPut_keyed _ _ _ g.keyed⟩
    · refine forall₂_put (R := Holds h) (fun x y e => e.key) id _ _ ?_ m mv g.holds g.keyed ?_
      · exact ⟨h.length, rfl, sw.new, rfl⟩
      · rintro x hx hne y ⟨a, h1, h2, h3⟩
        refine ⟨a, h1, ?_, h3⟩
        rw [sw.old a (lt_of_cell h2) ?_, h2]
        intro e
        obtain ⟨d, hd1, hd2⟩ := hd a e
        exact hne (g.inj x hx _ hd1 a h1 hd2)
    · intro x hx y hy a hxa hya
      rw [mapPut_mem _ _ _ g.keyed] at hx hy
      have lt : ∀ z ∈ m, z.2.prof = some a → a < h.length := fun z hz e => g.owned ⟨z, hz, e⟩
      rcases hx with rfl | ⟨hx, _⟩ <;> rcases hy with rfl | ⟨hy, _⟩
      · rfl
      · simp only at hxa; cases hxa
        have := lt y hy hya; omega
      · simp only at hya; cases hya
        have := lt x hx hxa; omega
      · exact g.inj x hx y hy a hxa hya
  · refine ⟨?_, ?_, ?_, ?_⟩
    · intro a ha hno
      refine sw.old a ha ?_
      intro e
      obtain ⟨d, hd1, hd2⟩ := hd a e
      exact hno ⟨_, hd1, hd2⟩
    · rintro a ⟨x, hx, e⟩
      rw [mapPut_mem _ _ _ g.keyed] at hx
      rcases hx with rfl | ⟨hx, _⟩
      · simp only at e; cases e; right; exact Nat.le_refl _
      · exact .inl ⟨x, hx, e⟩
    · rw [sw.len]; omega
    · intro a w e
      rcases sw.cell e with rfl | ⟨e1, e2⟩
      · left
        exact ⟨(id, _), (mapPut_mem _ _ _ g.keyed _).2 (.inl rfl), rfl⟩
      · by_cases o : Owns m a
        · left
          obtain ⟨x, hx, hxa⟩ := o
          refine ⟨x, (mapPut_mem _ _ _ g.keyed _).2 (.inr ⟨hx, ?_⟩), hxa⟩
          intro e
          exact e2 (by rw [hd' x hx e, hxa])
        · exact .inr ⟨e1, o⟩
  · exact ⟨(id, _), (mapPut_mem _ _ _ g.keyed _).2 (.inl rfl), rfl⟩
  · intro a w e
    rcases sw.cell e with rfl | ⟨e1, e2⟩
    · exact .inl rfl
    · exact .inr e1

theorem addLine_good {h : Heap K} {c : Cat K (Option Nat)} {mv} (g : Good h c.lines mv) (a : Params K) :
    (∀ l, described c.ns a = .ok l → ∃ q : Heap K × Lines K, addLine a h c = .done (q.1, ⟨c.ns, q.2⟩) ∧ Good q.1 q.2 (mapPut a.id l mv) ∧ Foot h c.lines q.1 q.2) ∧
    (∀ e, described c.ns a = .throw e → addLine a h c = .thrown e (h, c)) ∧ (described c.ns a = .ub → addLine a h c = .ub) := by
  unfold described addLine
  simp only [bind, Res.bind, pure]
  cases string2Type a.type with
  | throw e => simp
  | ub => simp
  | ok t =>
    cases string2Force a.force with
    | throw e => simp
    | ub => simp
    | ok f =>
      cases hp : profileAdd c.ns a.profile a.asym a.igm with
      | throw e => simp
      | ub => simp
      | ok v =>
        simp only [Res.ok.injEq, reduceCtorEq, false_implies, implies_true, and_true]
        rintro l rfl
        have g1 : Good (alloc h v) c.lines mv := g.same (fun x o => alloc_old h v (g.owned o))
        obtain ⟨q, e1, g2, ft, o, cl⟩ := putLine_good g1 a.id ⟨a.id, a.strId, a.name, a.group, a.velGroup, t, f, a.pos, a.offset, a.offsetFit, a.nom, some h.length⟩ (b := h.length) (v := v) rfl (alloc_new h v)
        have hno : ¬ Owns c.lines h.length := fun o => absurd (g.owned o) (Nat.lt_irrefl _)
        have hcell : q.1[h.length]? = some (some v) := by
          rw [ft.frame _ (by rw [alloc_len]; omega) hno, alloc_new]
        have hno' : ¬ Owns q.2 h.length := by
          intro o'
          rcases ft.fresh _ o' with o'' | o''
          · exact hno o''
          · rw [alloc_len] at o''; omega
        refine ⟨(q.1.set h.length none, q.2), ?_, ?_, ?_⟩
        · rw [e1]
          simp only
          rw [free_cell hcell]
        · refine g2.same ?_
          intro x o'
          rw [List.getElem?_set_ne]
          intro e; exact hno' (e ▸ o')
        · refine ⟨?_, ?_, ?_, ?_⟩
          · intro x hx ho
            rw [List.getElem?_set_ne (by omega), ft.frame x (by rw [alloc_len]; omega) ho, alloc_old h v hx]
          · intro x ho
            rcases ft.fresh x ho with o' | o'
            · exact .inl o'
            · right; rw [alloc_len] at o'; omega
          · have := ft.mono
            rw [alloc_len] at this
            simp only [List.length_set]; omega
          · intro x w e
            have hne : x ≠ h.length := by
              intro e'; subst e'
              rw [List.getElem?_set_self (lt_of_cell hcell)] at e
              cases e
            rw [List.getElem?_set_ne (fun e' => hne e'.symm)] at e
            rcases ft.noleak x w e with o' | ⟨o1, o2⟩
            · exact .inl o'
            · right
              refine ⟨?_, o2⟩
              rcases alloc_cell h v o1 with ⟨e', _⟩ | ⟨_, e'⟩
              · exact absurd e' hne
              · exact e'

/-! ## Copies -/

/-- Two maps made one after the other. -/
theorem Foot.cons {h h1 h2 : Heap K} {x : ℤ × Ln K} {m : Lines K} {y : ℤ × Ln K} {m' : Lines K} (f1 : Foot h [x] h1 [y]) (f2 : Foot h1 m h2 m')
    (hm : ∀ a, Owns m a → a < h.length) (hd : ∀ a, Owns [x] a → ¬ Owns m a) (hx : ∀ a, Owns [x] a → a < h.length) : Foot h (x :: m) h2 (y :: m') := by
  have oc : ∀ (z : ℤ × Ln K) (l : Lines K) (a : Nat), Owns (z :: l) a ↔ Owns [z] a ∨ Owns l a := by
    intro z l a; simp [Owns]
  refine ⟨?_, ?_, Nat.le_trans f1.mono f2.mono, ?_⟩
  · intro a ha ho
    rw [oc, not_or] at ho
    rw [f2.frame a (Nat.lt_of_lt_of_le ha f1.mono) ho.2, f1.frame a ha ho.1]
  · intro a ho
    rw [oc] at ho ⊢
    rcases ho with ho | ho
    · rcases f1.fresh a ho with o | o
      · exact .inl (.inl o)
      · exact .inr o
    · rcases f2.fresh a ho with o | o
      · exact .inl (.inr o)
      · exact .inr (Nat.le_trans f1.mono o)
  · intro a v e
    rw [oc y m', oc x m]
    rcases f2.noleak a v e with o | ⟨e1, o2⟩
    · exact .inl (.inr o)
    · rcases f1.noleak a v e1 with o | ⟨e3, o4⟩
      · exact .inl (.inl o)
      · exact .inr ⟨e3, by rintro (o | o); exacts [o4 o, o2 o]⟩

/-- The same with no map before. -/
theorem Foot.cons' {h h1 h2 : Heap K} {y : ℤ × Ln K} {m' : Lines K} (f1 : Foot h [] h1 [y]) (f2 : Foot h1 [] h2 m') : Foot h [] h2 (y :: m') := by
  have oc : ∀ (z : ℤ × Ln K) (l : Lines K) (a : Nat), Owns (z :: l) a ↔ Owns [z] a ∨ Owns l a := by
    intro z l a; simp [Owns]
  have on : ∀ a : Nat, ¬ Owns ([] : Lines K) a := by intro a; simp [Owns]
  refine ⟨?_, ?_, Nat.le_trans f1.mono f2.mono, ?_⟩
  · intro a ha ho
    rw [f2.frame a (Nat.lt_of_lt_of_le ha f1.mono) (on a), f1.frame a ha (on a)]
  · intro a ho
    rw [oc] at ho
    rcases ho with ho | ho
    · exact f1.fresh a ho
    · rcases f2.fresh a ho with o | o
      · exact .inl o
      · exact .inr (Nat.le_trans f1.mono o)
  · intro a v e
    rw [oc]
    rcases f2.noleak a v e with o | ⟨e1, o2⟩
    · exact .inl (.inr o)
    · rcases f1.noleak a v e1 with o | ⟨e3, o4⟩
      · exact .inl (.inl o)
      · exact .inr ⟨e3, o4⟩

theorem good_cons {h : Heap K} {x : ℤ × Ln K} {m : Lines K} {y mv} (g : Good h (x :: m) (y :: mv)) : Holds h x y ∧ Good h m mv ∧ (∀ a, x.2.prof = some a → ¬ Owns m a) ∧ (∀ z ∈ m, x.1 < z.1) := by
  have f := List.forall₂_cons.1 g.holds
  have k := List.pairwise_cons.1 g.keyed
  refine ⟨f.1, ⟨f.2, ?_, k.2⟩, ?_, k.1⟩
  · intro a ha b hb
    exact g.inj a (List.mem_cons_of_mem _ ha) b (List.mem_cons_of_mem _ hb)
  · rintro a ha ⟨z, hz, e⟩
    have := g.inj x List.mem_cons_self z (List.mem_cons_of_mem _ hz) a ha e
    exact absurd (k.1 z hz) (by rw [this]; exact lt_irrefl _)

theorem good_of_cons {h : Heap K} {x : ℤ × Ln K} {m : Lines K} {y mv} (hx : Holds h x y) (g : Good h m mv) (hd : ∀ a, x.2.prof = some a → ¬ Owns m a) (hk : ∀ z ∈ m, x.1 < z.1) : Good h (x :: m) (y :: mv) := by
  refine ⟨.cons hx g.holds, ?_, List.pairwise_cons.2 ⟨hk, g.keyed⟩⟩
  intro a ha b hb c hac hbc
  rcases List.mem_cons.1 ha with ea | ha' <;> rcases List.mem_cons.1 hb with eb | hb'
  · rw [ea, eb]
  · exact absurd ⟨b, hb', hbc⟩ (hd c (ea ▸ hac))
  · exact absurd ⟨a, ha', hac⟩ (hd c (eb ▸ hbc))
  · exact g.inj a ha' b hb' c hac hbc

theorem Forall₂.keys {h : Heap K} {m m' : Lines K} {mv} (f : List.Forall₂ (Holds h) m mv) {h' : Heap K} (f' : List.Forall₂ (Holds h') m' mv) : m.map (·.1) = m'.map (·.1) := by
  induction f generalizing m' with
  | nil => cases f'; rfl
  | @cons x y xs ys hxy _ ih =>
    cases f' with
    | @cons x' _ xs' _ hxy' f' =>
      rw [List.map_cons, List.map_cons, ih f', hxy.key, hxy'.key]

theorem copyLines_good {h : Heap K} {m : Lines K} {mv} (g : Good h m mv) :
    ∃ q : Heap K × Lines K, copyLines h m = .ok q ∧ Good q.1 q.2 mv ∧ Foot h [] q.1 q.2 := by
  induction m generalizing h mv with
  | nil =>
    have := g.holds
    cases this
    refine ⟨(h, []), rfl, g, ?_, ?_, Nat.le_refl _, ?_⟩
    · intro a _ _; rfl
    · intro a ho; exact .inl ho
    · intro a v e; exact .inr ⟨e, by simp [Owns]⟩
  | cons x m ih =>
    have f := g.holds
    obtain _ | @⟨_, y, _, mv', hxy, _⟩ := f
    obtain ⟨⟨a, h1, h2, h3⟩, g2, hd, hk⟩ := good_cons g
    have al : ∀ b, Owns m b → (alloc h y.2.prof)[b]? = h[b]? := fun b o => alloc_old h _ (g2.owned o)
    obtain ⟨q, e1, g3, ft⟩ := ih (g2.same al)
    have on : ∀ a : Nat, ¬ Owns ([] : Lines K) a := by intro a; simp [Owns]
    have f0 : Foot h [] (alloc h y.2.prof) [(x.1, { x.2 with prof := some h.length })] := by
      refine ⟨?_, ?_, ?_, ?_⟩
      · intro b hb _; exact alloc_old h _ hb
      · rintro b ⟨z, hz, e⟩
        simp only [List.mem_singleton] at hz
        subst hz
        cases e
        exact .inr (Nat.le_refl _)
      · rw [alloc_len]; omega
      · intro b v e
        rcases alloc_cell h _ e with ⟨rfl, _⟩ | ⟨_, e'⟩
        · exact .inl ⟨_, List.mem_singleton.2 rfl, rfl⟩
        · exact .inr ⟨e', on b⟩
    refine ⟨(q.1, (x.1, { x.2 with prof := some h.length }) :: q.2), ?_, ?_, Foot.cons' f0 ft⟩
    · have e : copyLines h (x :: m) = (copyRec h x.2 >>= fun q => copyLines q.1 m >>= fun s => .ok (s.1, (x.1, q.2) :: s.2)) := rfl
      rw [e]
      unfold copyRec
      rw [h1, read_cell h2, Res.bind_ok, Res.bind_ok, e1, Res.bind_ok]
    · refine good_of_cons ⟨h.length, rfl, ?_, ?_⟩ g3 ?_ ?_
      · rw [ft.frame _ (by rw [alloc_len]; omega) (on _), alloc_new]
      · rw [h3]; rfl
      · intro b hb o
        simp only at hb
        cases hb
        rcases ft.fresh _ o with o' | o'
        · exact on _ o'
        · rw [alloc_len] at o'; omega
      · have ek := Forall₂.keys g2.holds g3.holds
        intro z hz
        have : z.1 ∈ q.2.map (·.1) := List.mem_map.2 ⟨z, hz, rfl⟩
        rw [← ek] at this
        obtain ⟨z', hz', e⟩ := List.mem_map.1 this
        rw [← e]; exact hk z' hz'

theorem ratioLines_good {h : Heap K} {m : Lines K} {mv} (g : Good h m mv) :
    ∃ q : Heap K × Lines K, ratioLines h m = .ok q ∧ Good q.1 q.2 (mv.map fun x => (x.1, { x.2 with nom := 0 })) ∧ Foot h [] q.1 q.2 := by
  obtain ⟨q, e1, g1, ft⟩ := copyLines_good g
  have ow : ∀ a, Owns (q.2.map fun x => (x.1, { x.2 with nom := (0 : K) })) a ↔ Owns q.2 a := by
    intro a; simp [Owns]
  refine ⟨(q.1, q.2.map fun x => (x.1, { x.2 with nom := 0 })), ?_, ⟨?_, ?_, ?_⟩, ft.frame, ?_, ft.mono, ?_⟩
  · unfold ratioLines; rw [e1]; rfl
  · rw [List.forall₂_map_left_iff, List.forall₂_map_right_iff]
    refine g1.holds.imp ?_
    rintro x y ⟨a, h1, h2, h3⟩
    refine ⟨a, h1, h2, ?_⟩
    rw [h3]; rfl
  · intro x hx y hy a hxa hya
    simp only [List.mem_map] at hx hy
    obtain ⟨x', hx', rfl⟩ := hx
    obtain ⟨y', hy', rfl⟩ := hy
    exact g1.inj x' hx' y' hy' a hxa hya
  · exact List.pairwise_map.2 g1.keyed
  · intro a o; exact ft.fresh a ((ow a).1 o)
  · intro a v e
    rw [ow]; exact ft.noleak a v e

theorem filterLines_good (t : LType) (f : Force) : ∀ {m : Lines K} {h : Heap K} {mv} {acc : Lines K} {av : List (ℤ × Rec K (Prof K))}, Good h m mv → Good h acc av →
    (∀ a, Owns acc a → ¬ Owns m a) → (∀ x ∈ acc, ∀ y ∈ m, x.1 < y.1) →
    ∃ q : Heap K × Lines K, filterLines t f h acc m = .ok q ∧ Good q.1 q.2 (av ++ mv.filter fun x => kept t f x.2) ∧ Foot h acc q.1 q.2 := by
  intro m
  induction m with
  | nil =>
    intro h mv acc av g ga hd hk
    have := g.holds
    cases this
    refine ⟨(h, acc), rfl, by simpa using ga, ?_, ?_, Nat.le_refl _, ?_⟩
    · intro a _ _; rfl
    · intro a ho; exact .inl ho
    · intro a v e
      by_cases o : Owns acc a
      · exact .inl o
      · exact .inr ⟨e, o⟩
  | cons x m ih =>
    intro h mv acc av g ga hd hk
    have fo := g.holds
    obtain _ | @⟨_, y, _, mv', hxy, _⟩ := fo
    obtain ⟨⟨a, h1, h2, h3⟩, g2, hd2, hk2⟩ := good_cons g
    have e0 : filterLines t f h acc (x :: m) = if kept t f x.2 then putLine x.1 x.2 h acc >>= fun q => filterLines t f q.1 q.2 m else filterLines t f h acc m := rfl
    have ek : kept t f y.2 = kept t f x.2 := by rw [h3]; rfl
    have om : ∀ b, Owns m b → Owns (x :: m) b := by
      rintro b ⟨z, hz, e⟩; exact ⟨z, List.mem_cons_of_mem _ hz, e⟩
    rw [e0]
    by_cases c : kept t f x.2
    · rw [if_pos c]
      obtain ⟨q, e1, g3, ft, _, _⟩ := putLine_good ga x.1 x.2 h1 h2
      have hkv : ∀ z ∈ av, z.1 < x.1 := by
        intro z hz
        obtain ⟨i, hi, rfl⟩ := List.getElem_of_mem hz
        have hl := ga.holds.length_eq
        have hk3 := ((List.forall₂_iff_get.1 ga.holds).2 i (by omega) hi).key
        simp only [List.get_eq_getElem] at hk3
        rw [← hk3]
        exact hk _ (List.getElem_mem _) x List.mem_cons_self
      rw [mapPut_append _ _ _ hkv] at g3
      have kq : ∀ z ∈ q.2, ∀ w ∈ m, z.1 < w.1 := by
        intro z hz w hw
        have : q.2 = mapPut x.1 { x.2 with prof := some h.length } acc := by
          unfold putLine assign at e1
          rw [h1, read_cell h2, Res.bind_ok] at e1
          obtain ⟨h'', e2, e3⟩ := Res.bind_eq_ok.1 e1
          obtain ⟨h3', e4, e5⟩ := Res.bind_eq_ok.1 e2
          cases e5; cases e3; rfl
        rw [this] at hz
        rcases mapPut_keys _ _ _ _ hz with rfl | hz
        · exact hk2 w hw
        · exact hk z hz w (List.mem_cons_of_mem _ hw)
      obtain ⟨q', e2, g4, ft2⟩ := ih (g2.same fun b o => ft.frame b (g2.owned o) (fun o' => hd b o' (om b o))) g3 (by
        intro b o o'
        rcases ft.fresh b o with o2 | o2
        · exact hd b o2 (om b o')
        · exact absurd (g2.owned o') (by omega)) kq
      refine ⟨q', ?_, ?_, ?_⟩
      · rw [e1, Res.bind_ok, e2]
      · rw [List.filter_cons_of_pos (by rw [ek]; exact c)]
        rw [List.append_assoc] at g4
        have : (x.1, x.2.withProf y.2.prof) = y := h3.symm
        rw [this] at g4
        exact g4
      · refine ⟨?_, ?_, Nat.le_trans ft.mono ft2.mono, ?_⟩
        · intro b hb ho
          rw [ft2.frame b (Nat.lt_of_lt_of_le hb ft.mono) ?_, ft.frame b hb ho]
          intro o'
          rcases ft.fresh b o' with o2 | o2
          · exact ho o2
          · omega
        · intro b o
          rcases ft2.fresh b o with o2 | o2
          · exact ft.fresh b o2
          · exact .inr (Nat.le_trans ft.mono o2)
        · intro b v e
          rcases ft2.noleak b v e with o | ⟨e1, o2⟩
          · exact .inl o
          · rcases ft.noleak b v e1 with o3 | o3
            · exact absurd o3 o2
            · exact .inr o3
    · rw [if_neg c]
      obtain ⟨q', e2, g4, ft2⟩ := ih g2 ga (fun b o o' => hd b o (om b o')) (fun z hz w hw => hk z hz w (List.mem_cons_of_mem _ hw))
      refine ⟨q', e2, ?_, ft2⟩
      rw [List.filter_cons_of_neg (by rw [ek]; exact c)]
      exact g4

end LineDef
end Amazed
