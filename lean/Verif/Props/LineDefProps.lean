import Verif.Props.LineDefHeap

set_option linter.unusedVariables false
set_option linter.unusedSectionVars false
set_option linter.unusedSimpArgs false

/-! # Catalogues are values (C187) -/

namespace Amazed
namespace LineDef
open Amp (LType Force)
open LineCat (mapPut mapFind string2Type string2Force Keyed mapPut_keyed mapFind_mem mapFind_put mapPut_append mapPut_keys)
open Lya (AsymP)

variable {K : Type} [Field K] [LinearOrder K]

theorem Foot.refl (h : Heap K) (m : Lines K) : Foot h m h m := by
  refine ⟨fun a _ _ => rfl, fun a o => .inl o, Nat.le_refl _, fun a v e => ?_⟩
  by_cases o : Owns m a
  · exact .inl o
  · exact .inr ⟨e, o⟩

theorem keysV {h : Heap K} {m : Lines K} {mv} (f : List.Forall₂ (Holds h) m mv) : m.map (·.1) = mv.map (·.1) := by
  induction f with
  | nil => rfl
  | cons e _ ih => rw [List.map_cons, List.map_cons, ih, e.key]

theorem reset_ok {h : Heap K} {r : Ln K} {a : Nat} {v : Prof K} (w : Prof K) (h1 : r.prof = some a) (h2 : h[a]? = some (some v)) :
    ∃ h', reset h r w = .ok (h', { r with prof := some h.length }) ∧ Swap h w (some a) h' := by
  obtain ⟨h', e, s⟩ := swap_free h w (some a) (by intro b e; cases e; exact ⟨v, h2⟩)
  refine ⟨h', ?_, s⟩
  unfold reset
  rw [h1, e, Res.bind_ok]

/-- A loop that replaces the profile of some of the lines. -/
theorem eachLine_good (f : Heap K → Ln K → Out (Heap K × Ln K)) (p : Rec K (Prof K) → Bool) (w : Prof K)
    (hf : ∀ h r a v, r.prof = some a → h[a]? = some (some v) → f h r = if p (r.withProf v) then (match reset h r w with | .ok s => .done s | _ => .ub) else .done (h, r)) :
    ∀ {m : Lines K} {h : Heap K} {mv}, Good h m mv →
    ∃ q : Heap K × Lines K, eachLine f h m = .done q ∧ Good q.1 q.2 (mv.map fun x => if p x.2 then (x.1, { x.2 with prof := w }) else x) ∧ Foot h m q.1 q.2 := by
  intro m
  induction m with
  | nil =>
    intro h mv g
    have := g.holds
    cases this
    exact ⟨(h, []), rfl, g, Foot.refl _ _⟩
  | cons x m ih =>
    intro h mv g
    have fo := g.holds
    obtain _ | @⟨_, y, _, mv', hxy, _⟩ := fo
    obtain ⟨⟨a, h1, h2, h3⟩, g2, hd, hk⟩ := good_cons g
    have e0 : eachLine f h (x :: m) = match f h x.2 with
      | .ub => .ub
      | .thrown e s => .thrown e (s.1, (x.1, s.2) :: m)
      | .done s => match eachLine f s.1 m with
        | .ub => .ub
        | .thrown e t => .thrown e (t.1, (x.1, s.2) :: t.2)
        | .done t => .done (t.1, (x.1, s.2) :: t.2) := rfl
    have hp : x.2.withProf y.2.prof = y.2 := by rw [h3]; rfl
    rw [e0, hf h x.2 a _ h1 h2, hp, List.map_cons]
    have ox : ∀ b, Owns [x] b → b = a := by
      rintro b ⟨z, hz, e⟩
      rw [List.mem_singleton.1 hz, h1] at e
      cases e; rfl
    have oxa : Owns [x] a := ⟨x, List.mem_singleton.2 rfl, h1⟩
    by_cases c : p y.2
    · rw [if_pos c, if_pos c]
      obtain ⟨h', e1, sw⟩ := reset_ok w h1 h2
      rw [e1]
      simp only
      have fr : ∀ b, Owns m b → h'[b]? = h[b]? := by
        intro b o
        exact sw.old b (g2.owned o) (by intro e; cases e; exact hd _ h1 o)
      obtain ⟨q, e2, g3, ft⟩ := ih (g2.same fr)
      rw [e2]
      refine ⟨_, rfl, ?_, ?_⟩
      · refine good_of_cons ⟨h.length, rfl, ?_, ?_⟩ g3 ?_ ?_
        · rw [ft.frame _ (by rw [sw.len]; omega) (fun o => absurd (g2.owned o) (Nat.lt_irrefl _)), sw.new]
        · have e : y.2 = x.2.withProf y.2.prof := hp.symm
          have e' : y.1 = x.1 := by rw [h3]
          simp only
          rw [e', e]
          rfl
        · intro b hb o
          simp only at hb
          cases hb
          rcases ft.fresh _ o with o' | o'
          · exact absurd (g2.owned o') (Nat.lt_irrefl _)
          · rw [sw.len] at o'; omega
        · have gm := (g2.same fr).keyed
          have ek : m.map (·.1) = q.2.map (·.1) := by
            have k1 := keysV g2.holds
            have k2 := keysV g3.holds
            rw [k1, k2, List.map_map]
            refine List.map_congr_left ?_
            intro z _
            simp only [Function.comp]
            split <;> rfl
          intro z hz
          have : z.1 ∈ q.2.map (·.1) := List.mem_map.2 ⟨z, hz, rfl⟩
          rw [← ek] at this
          obtain ⟨z', hz', e⟩ := List.mem_map.1 this
          rw [← e]; exact hk z' hz'
      · refine Foot.cons ?_ ft (fun b o => g2.owned o) ?_ ?_
        · refine ⟨?_, ?_, ?_, ?_⟩
          · intro b hb ho
            exact sw.old b hb (by intro e; cases e; exact ho oxa)
          · rintro b ⟨z, hz, e⟩
            rw [List.mem_singleton.1 hz] at e
            cases e; exact .inr (Nat.le_refl _)
          · rw [sw.len]; omega
          · intro b v e
            rcases sw.cell e with rfl | ⟨e1, e2⟩
            · exact .inl ⟨_, List.mem_singleton.2 rfl, rfl⟩
            · exact .inr ⟨e1, by intro o; exact e2 (by rw [ox b o])⟩
        · intro b o o'
          exact hd a h1 (ox b o ▸ o')
        · intro b o
          rw [ox b o]; exact lt_of_cell h2
    · rw [if_neg c, if_neg c]
      simp only
      obtain ⟨q, e2, g3, ft⟩ := ih g2
      rw [e2]
      refine ⟨_, rfl, ?_, ?_⟩
      · refine good_of_cons ⟨a, h1, ?_, h3⟩ g3 ?_ ?_
        · rw [ft.frame a (lt_of_cell h2) (hd a h1), h2]
        · intro b hb o
          rw [h1] at hb
          cases hb
          rcases ft.fresh _ o with o' | o'
          · exact hd _ h1 o'
          · exact absurd (lt_of_cell h2) (by omega)
        · have ek : m.map (·.1) = q.2.map (·.1) := by
            have k1 := keysV g2.holds
            have k2 := keysV g3.holds
            rw [k1, k2, List.map_map]
            refine List.map_congr_left ?_
            intro z _
            simp only [Function.comp]
            split <;> rfl
          intro z hz
          have : z.1 ∈ q.2.map (·.1) := List.mem_map.2 ⟨z, hz, rfl⟩
          rw [← ek] at this
          obtain ⟨z', hz', e⟩ := List.mem_map.1 this
          rw [← e]; exact hk z' hz'
      · exact Foot.cons (Foot.refl _ _) ft (fun b o => g2.owned o) (fun b o o' => hd a h1 (ox b o ▸ o')) (fun b o => by rw [ox b o]; exact lt_of_cell h2)

/-- A loop left by an exception at the first line concerned. -/
theorem eachLine_thrown (f : Heap K → Ln K → Out (Heap K × Ln K)) (p : Rec K (Prof K) → Bool) (e : Err)
    (hf : ∀ h r a v, r.prof = some a → h[a]? = some (some v) → f h r = if p (r.withProf v) then .thrown e (h, r) else .done (h, r)) :
    ∀ {m : Lines K} {h : Heap K} {mv}, Good h m mv → eachLine f h m = if mv.any (fun x => p x.2) then .thrown e (h, m) else .done (h, m) := by
  intro m
  induction m with
  | nil =>
    intro h mv g
    have := g.holds
    cases this
    rfl
  | cons x m ih =>
    intro h mv g
    have fo := g.holds
    obtain _ | @⟨_, y, _, mv', hxy, _⟩ := fo
    obtain ⟨⟨a, h1, h2, h3⟩, g2, hd, hk⟩ := good_cons g
    have hp : x.2.withProf y.2.prof = y.2 := by rw [h3]; rfl
    have e0 : eachLine f h (x :: m) = match f h x.2 with
      | .ub => .ub
      | .thrown e s => .thrown e (s.1, (x.1, s.2) :: m)
      | .done s => match eachLine f s.1 m with
        | .ub => .ub
        | .thrown e t => .thrown e (t.1, (x.1, s.2) :: t.2)
        | .done t => .done (t.1, (x.1, s.2) :: t.2) := rfl
    rw [e0, hf h x.2 a _ h1 h2, hp, List.any_cons]
    by_cases c : p y.2
    · rw [if_pos c]
      simp [c]
    · rw [if_neg c]
      simp only
      rw [ih g2]
      simp only [Bool.not_eq_true] at c
      rw [c, Bool.false_or]
      by_cases c2 : (mv'.any fun x => p x.2) = true
      · rw [if_pos c2, if_pos c2]
      · rw [if_neg c2, if_neg c2]

theorem fixed_igm : isFixedName "SYMIGM" = false := by decide +kernel

theorem profileSet_igm (ns : K) (q : AsymP K) (igm : Option Nat) : profileSet ns "SYMIGM" q igm = .ok (.symIgm ns igm none none false) := by
  unfold profileSet
  rw [fixed_igm]
  simp

theorem profileSet_cases (ns : K) (name : String) (q : AsymP K) (igm : Option Nat) : (∃ w, profileSet ns name q igm = .ok w) ∨ profileSet ns name q igm = .throw .INTERNAL_ERROR := by
  unfold profileSet
  repeat' split
  all_goals simp

theorem convLoop_good {h : Heap K} {c : Cat K (Option Nat)} {mv} (g : Good h c.lines mv) (igm : Option Nat) :
    ∃ q : Heap K × Lines K, inCat (fun ns => eachLine (convOne ns igm)) h c = .done (q.1, ⟨c.ns, q.2⟩) ∧ Good q.1 q.2 (convV igm ⟨c.ns, mv⟩).lines ∧ Foot h c.lines q.1 q.2 := by
  obtain ⟨q, e, g1, ft⟩ := eachLine_good (convOne c.ns igm) underLya (.symIgm c.ns igm none none false) (by
    intro h r a v h1 h2
    unfold convOne
    rw [profileSet_igm]
    rfl) g
  refine ⟨q, ?_, g1, ft⟩
  unfold inCat
  beta_reduce
  rw [e]

theorem asymLoop_good {h : Heap K} {c : Cat K (Option Nat)} {mv} (g : Good h c.lines mv) (name : String) (p : AsymP K) :
    ∃ q : Heap K × Lines K, inCat (fun ns => eachLine (asymOne ns name p)) h c = (match (asymV name p ⟨c.ns, mv⟩).2 with
      | some e => .thrown e (q.1, ⟨c.ns, q.2⟩)
      | none => .done (q.1, ⟨c.ns, q.2⟩)) ∧ Good q.1 q.2 (asymV name p ⟨c.ns, mv⟩).1.lines ∧ (asymV name p ⟨c.ns, mv⟩).1.ns = c.ns ∧ Foot h c.lines q.1 q.2 := by
  rcases profileSet_cases c.ns name p none with ⟨w, hw⟩ | hw
  · obtain ⟨q, e, g1, ft⟩ := eachLine_good (asymOne c.ns name p) (fun r => r.prof.isAsymAny) w (by
      intro h r a v h1 h2
      unfold asymOne
      rw [h1]
      simp only
      rw [read_cell h2]
      simp only
      rw [hw]
      rfl) g
    refine ⟨q, ?_, ?_, ?_, ft⟩
    · unfold inCat asymV
      beta_reduce
      rw [e]
      simp only [hw]
    · simp only [asymV, hw]
      exact g1
    · simp only [asymV, hw]
  · have e := eachLine_thrown (asymOne c.ns name p) (fun r => r.prof.isAsymAny) .INTERNAL_ERROR (by
      intro h r a v h1 h2
      unfold asymOne
      rw [h1]
      simp only
      rw [read_cell h2]
      simp only
      rw [hw]
      rfl) g
    refine ⟨(h, c.lines), ?_, ?_, ?_, Foot.refl _ _⟩
    · unfold inCat asymV
      beta_reduce
      rw [e]
      simp only [hw]
      by_cases c2 : (mv.any fun x => x.2.prof.isAsymAny) = true
      · rw [if_pos c2]; simp only [c2, if_true]
      · rw [if_neg c2]; simp only [c2]; rfl
    · simp only [asymV, hw]
      exact g
    · simp only [asymV, hw]

theorem setAmp_good {h : Heap K} {c : Cat K (Option Nat)} {mv} (g : Good h c.lines mv) (id : ℤ) (a : K) :
    (∀ l, mapFind id mv = some l → ∃ q : Heap K × Lines K, setAmp id a h c = .done (q.1, ⟨c.ns, q.2⟩) ∧ Good q.1 q.2 (mapPut id { l with nom := a } mv) ∧ Foot h c.lines q.1 q.2) ∧
    (mapFind id mv = none → setAmp id a h c = .thrown .INTERNAL_ERROR (h, c)) := by
  have key : ∀ (m : Lines K) (mv : List (ℤ × Rec K (Prof K))), List.Forall₂ (Holds h) m mv → (mapFind id m = none ↔ mapFind id mv = none) ∧
      ∀ l, mapFind id mv = some l → ∃ d, mapFind id m = some d ∧ Holds h (id, d) (id, l) := by
    intro m mv f
    induction f with
    | nil => simp [mapFind]
    | @cons x y xs ys hxy _ ih =>
      obtain ⟨x1, x2⟩ := x
      obtain ⟨y1, y2⟩ := y
      have ek := hxy.key
      simp only at ek
      subst ek
      unfold mapFind
      by_cases c : id = x1
      · subst c
        simp only [if_true]
        refine ⟨by simp, ?_⟩
        intro l e; cases e
        exact ⟨x2, rfl, hxy⟩
      · rw [if_neg c, if_neg c]
        exact ih
  obtain ⟨k1, k2⟩ := key _ _ g.holds
  constructor
  · intro l hl
    obtain ⟨d, hd, b, h1, h2, h3⟩ := k2 l hl
    refine ⟨(h, mapPut id { d with nom := a } c.lines), ?_, ⟨?_, ?_, mapPut_keyed _ _ _ g.keyed⟩, ?_⟩
    · unfold setAmp
      rw [hd]
    · refine forall₂_put (R := Holds h) (fun x y e => e.key) id _ _ ⟨b, h1, h2, ?_⟩ _ _ g.holds g.keyed (fun x _ _ y e => e)
      simp only at h3 ⊢
      have h4 : l = d.withProf l.prof := by
        have := congrArg Prod.snd h3
        simpa using this
      rw [h4]; rfl
    · have hm := (mapFind_mem g.keyed id d).1 hd
      intro x hx y hy e hxe hye
      rw [mapPut_mem _ _ _ g.keyed] at hx hy
      rcases hx with rfl | ⟨hx, hx'⟩ <;> rcases hy with rfl | ⟨hy, hy'⟩
      · rfl
      · exact g.inj (id, d) hm y hy e hxe hye
      · exact g.inj x hx (id, d) hm e hxe hye
      · exact g.inj x hx y hy e hxe hye
    · have hm := (mapFind_mem g.keyed id d).1 hd
      have ow : ∀ e, Owns (mapPut id { d with nom := a } c.lines) e ↔ Owns c.lines e := by
        intro e
        constructor
        · rintro ⟨x, hx, hxe⟩
          rw [mapPut_mem _ _ _ g.keyed] at hx
          rcases hx with rfl | ⟨hx, hx'⟩
          · exact ⟨_, hm, hxe⟩
          · exact ⟨x, hx, hxe⟩
        · rintro ⟨x, hx, hxe⟩
          by_cases hxi : x.1 = id
          · refine ⟨(id, { d with nom := a }), (mapPut_mem _ _ _ g.keyed _).2 (.inl rfl), ?_⟩
            have : mapFind id c.lines = some x.2 := (mapFind_mem g.keyed id x.2).2 (by rw [← hxi]; exact hx)
            rw [hd] at this
            cases this
            exact hxe
          · exact ⟨x, (mapPut_mem _ _ _ g.keyed _).2 (.inr ⟨hx, hxi⟩), hxe⟩
      refine ⟨fun e _ _ => rfl, fun e o => .inl ((ow e).1 o), Nat.le_refl _, ?_⟩
      intro e v he
      rw [ow]
      by_cases o : Owns c.lines e
      · exact .inl o
      · exact .inr ⟨he, o⟩
  · intro hn
    unfold setAmp
    rw [k1.2 hn]

/-! ## The program and the specification -/

/-- The catalogues of the program hold what the specification says; every live profile belongs to exactly one line of one catalogue. -/
structure Sim (w : World K) (s : List (VCat K)) : Prop where
  len : w.cats.length = s.length
  good : ∀ (i : Nat) (c : Cat K (Option Nat)) (v : VCat K), w.cats[i]? = some c → s[i]? = some v → c.ns = v.ns ∧ Good w.heap c.lines v.lines
  apart : ∀ (i j : Nat) (c d : Cat K (Option Nat)), w.cats[i]? = some c → w.cats[j]? = some d → i ≠ j → ∀ a, Owns c.lines a → ¬ Owns d.lines a
  noleak : ∀ a v, w.heap[a]? = some (some v) → ∃ (i : Nat) (c : Cat K (Option Nat)), w.cats[i]? = some c ∧ Owns c.lines a

theorem Sim.get {w : World K} {s : List (VCat K)} (h : Sim w s) {k : Nat} {c : Cat K (Option Nat)} (hc : w.cats[k]? = some c) : ∃ v, s[k]? = some v ∧ c.ns = v.ns ∧ Good w.heap c.lines v.lines := by
  have : k < s.length := by
    rw [← h.len]
    rcases Nat.lt_or_ge k w.cats.length with h' | h'
    · exact h'
    · rw [List.getElem?_eq_none h'] at hc; cases hc
  exact ⟨s[k], List.getElem?_eq_getElem this, h.good k c _ hc (List.getElem?_eq_getElem this)⟩

theorem Sim.put {w : World K} {s : List (VCat K)} (h : Sim w s) {k : Nat} {c : Cat K (Option Nat)} (hc : w.cats[k]? = some c) {q : Heap K × Lines K} {v : VCat K}
    (hn : c.ns = v.ns) (g : Good q.1 q.2 v.lines) (ft : Foot w.heap c.lines q.1 q.2) : Sim (w.put k (q.1, ⟨c.ns, q.2⟩)) (s.set k v) := by
  have hk : k < w.cats.length := by
    rcases Nat.lt_or_ge k w.cats.length with h' | h'
    · exact h'
    · rw [List.getElem?_eq_none h'] at hc; cases hc
  have at' : ∀ i d, (w.cats.set k ⟨c.ns, q.2⟩)[i]? = some d → (i = k ∧ d = ⟨c.ns, q.2⟩) ∨ (i ≠ k ∧ w.cats[i]? = some d) := by
    intro i d e
    by_cases ik : i = k
    · subst ik
      rw [List.getElem?_set_self hk] at e
      cases e; exact .inl ⟨rfl, rfl⟩
    · rw [List.getElem?_set_ne (fun e => ik e.symm)] at e
      exact .inr ⟨ik, e⟩
  have far : ∀ i d, w.cats[i]? = some d → i ≠ k → ∀ a, Owns d.lines a → a < w.heap.length ∧ ¬ Owns c.lines a := by
    intro i d e ik a o
    obtain ⟨v', _, _, g'⟩ := h.get e
    exact ⟨g'.owned o, h.apart i k d c e hc ik a o⟩
  refine ⟨?_, ?_, ?_, ?_⟩
  · simp only [World.put, List.length_set]
    exact h.len
  · intro i d v' e1 e2
    rcases at' i d e1 with ⟨rfl, rfl⟩ | ⟨ik, e⟩
    · rw [List.getElem?_set_self (by rw [← h.len]; exact hk)] at e2
      cases e2
      exact ⟨hn, g⟩
    · rw [List.getElem?_set_ne (fun e => ik e.symm)] at e2
      obtain ⟨h1, h2⟩ := h.good i d v' e e2
      refine ⟨h1, h2.same ?_⟩
      intro a o
      obtain ⟨f1, f2⟩ := far i d e ik a o
      exact ft.frame a f1 f2
  · have ap : ∀ i d, w.cats[i]? = some d → i ≠ k → ∀ a, Owns d.lines a → ¬ Owns q.2 a := by
      intro i d e ik a o o'
      obtain ⟨f1, f2⟩ := far i d e ik a o
      rcases ft.fresh a o' with o2 | o2
      · exact f2 o2
      · omega
    intro i j d d' e1 e2 ij a o o'
    rcases at' i d e1 with ⟨rfl, rfl⟩ | ⟨ik, e⟩ <;> rcases at' j d' e2 with ⟨rfl, rfl⟩ | ⟨jk, e'⟩
    · exact ij rfl
    · exact ap j d' e' jk a o' o
    · exact ap i d e ik a o o'
    · exact h.apart i j d d' e e' ij a o o'
  · intro a v' e
    rcases ft.noleak a v' e with o | ⟨e1, o2⟩
    · exact ⟨k, ⟨c.ns, q.2⟩, by simp only [World.put]; rw [List.getElem?_set_self hk], o⟩
    · obtain ⟨i, d, h1, h2⟩ := h.noleak a v' e1
      have ik : i ≠ k := by
        rintro rfl
        rw [hc] at h1; cases h1
        exact o2 h2
      exact ⟨i, d, by simp only [World.put]; rw [List.getElem?_set_ne (fun e => ik e.symm), h1], h2⟩

theorem Sim.add {w : World K} {s : List (VCat K)} (h : Sim w s) {q : Heap K × Lines K} {v : VCat K} {ns : K} (hn : ns = v.ns)
    (g : Good q.1 q.2 v.lines) (ft : Foot w.heap [] q.1 q.2) : Sim ⟨q.1, w.cats ++ [⟨ns, q.2⟩]⟩ (s ++ [v]) := by
  have on : ∀ a : Nat, ¬ Owns ([] : Lines K) a := by intro a; simp [Owns]
  have at' : ∀ i d, (w.cats ++ [⟨ns, q.2⟩])[i]? = some d → (i = w.cats.length ∧ d = ⟨ns, q.2⟩) ∨ (i < w.cats.length ∧ w.cats[i]? = some d) := by
    intro i d e
    rcases Nat.lt_or_ge i w.cats.length with c | c
    · rw [List.getElem?_append_left c] at e; exact .inr ⟨c, e⟩
    · rw [List.getElem?_append_right c] at e
      have : i - w.cats.length = 0 := by
        rcases Nat.eq_zero_or_pos (i - w.cats.length) with z | z
        · exact z
        · rw [List.getElem?_eq_none (by simp only [List.length_singleton]; omega)] at e; cases e
      rw [this] at e
      cases e
      exact .inl ⟨by omega, rfl⟩
  have ap : ∀ (i : Nat) (d : Cat K (Option Nat)), w.cats[i]? = some d → ∀ a, Owns d.lines a → ¬ Owns q.2 a := by
    intro i d e a o o'
    obtain ⟨v', _, _, g'⟩ := h.get e
    have := g'.owned o
    rcases ft.fresh a o' with o2 | o2
    · exact on a o2
    · omega
  refine ⟨?_, ?_, ?_, ?_⟩
  · simp [h.len]
  · intro i d v' e1 e2
    rcases at' i d e1 with ⟨rfl, rfl⟩ | ⟨ik, e⟩
    · rw [h.len, List.getElem?_append_right (Nat.le_refl _)] at e2
      simp only [Nat.sub_self, List.getElem?_cons_zero, Option.some.injEq] at e2
      subst e2
      exact ⟨hn, g⟩
    · rw [List.getElem?_append_left (by rw [← h.len]; exact ik)] at e2
      obtain ⟨h1, h2⟩ := h.good i d v' e e2
      exact ⟨h1, h2.same fun a o => ft.frame a (h2.owned o) (on a)⟩
  · intro i j d d' e1 e2 ij a o o'
    rcases at' i d e1 with ⟨rfl, rfl⟩ | ⟨ik, e⟩ <;> rcases at' j d' e2 with ⟨rfl, rfl⟩ | ⟨jk, e'⟩
    · exact ij rfl
    · exact ap j d' e' a o' o
    · exact ap i d e a o o'
    · exact h.apart i j d d' e e' ij a o o'
  · intro a v' e
    rcases ft.noleak a v' e with o | ⟨e1, _⟩
    · exact ⟨w.cats.length, ⟨ns, q.2⟩, by rw [List.getElem?_append_right (Nat.le_refl _)]; simp, o⟩
    · obtain ⟨i, d, h1, h2⟩ := h.noleak a v' e1
      refine ⟨i, d, ?_, h2⟩
      rw [List.getElem?_append_left]
      · exact h1
      · rcases Nat.lt_or_ge i w.cats.length with h' | h'
        · exact h'
        · rw [List.getElem?_eq_none h'] at h1; cases h1

theorem Sim.unchanged {w : World K} {s : List (VCat K)} (h : Sim w s) {k : Nat} {c : Cat K (Option Nat)} (hc : w.cats[k]? = some c) : w.put k (w.heap, c) = w := by
  unfold World.put
  have : w.cats.set k c = w.cats := by
    rcases List.getElem?_eq_some_iff.1 hc with ⟨hk, e⟩
    rw [← e, List.set_getElem_self]
  simp only [this]

/-- One call. -/
theorem call_sim {w : World K} {s : List (VCat K)} (h : Sim w s) (c : Call K) :
    match spec s c with
    | none => w.call c = .ub
    | some (s', none) => ∃ w', w.call c = .done w' ∧ Sim w' s'
    | some (s', some e) => ∃ w', w.call c = .thrown e w' ∧ Sim w' s' := by
  have dead : ∀ k : Nat, w.cats[k]? = none → s[k]? = none := by
    intro k e
    rw [List.getElem?_eq_none_iff] at e ⊢
    rw [← h.len]; exact e
  cases c with
  | new ns => exact ⟨_, rfl, h.add (q := (w.heap, [])) (v := ⟨ns, []⟩) rfl (Good.nil _) (Foot.refl _ _)⟩
  | add k a =>
    simp only [spec, World.call, World.on]
    cases hc : w.cats[k]? with
    | none => rw [dead k hc]; rfl
    | some c =>
      obtain ⟨v, hv, hn, g⟩ := h.get hc
      obtain ⟨p1, p2, p3⟩ := addLine_good g a
      rw [hv]
      simp only [Option.bind_some]
      rw [← hn]
      cases hd : described c.ns a with
      | ok l =>
        obtain ⟨q, e, g', ft⟩ := p1 l hd
        rw [e]
        exact ⟨_, rfl, h.put (v := ⟨c.ns, mapPut a.id l v.lines⟩) hc rfl g' ft⟩
      | throw e =>
        rw [p2 e hd]
        refine ⟨_, rfl, ?_⟩
        rw [h.unchanged hc]; exact h
      | ub => rw [p3 hd]
  | copy k =>
    simp only [spec, World.call, World.from]
    cases hc : w.cats[k]? with
    | none => rw [dead k hc]; rfl
    | some c =>
      obtain ⟨v, hv, hn, g⟩ := h.get hc
      obtain ⟨q, e, g', ft⟩ := copyLines_good g
      rw [hv]
      simp only [Option.bind_some]
      rw [e]
      exact ⟨_, rfl, h.add hn g' ft⟩
  | ratio k =>
    simp only [spec, World.call, World.from]
    cases hc : w.cats[k]? with
    | none => rw [dead k hc]; rfl
    | some c =>
      obtain ⟨v, hv, hn, g⟩ := h.get hc
      obtain ⟨q, e, g', ft⟩ := ratioLines_good g
      rw [hv]
      simp only [Option.bind_some]
      rw [e]
      exact ⟨_, rfl, h.add (v := ⟨v.ns, v.lines.map fun x => (x.1, { x.2 with nom := 0 })⟩) hn g' ft⟩
  | filter k t f =>
    simp only [spec, World.call, World.from]
    cases hc : w.cats[k]? with
    | none => rw [dead k hc]; rfl
    | some c =>
      obtain ⟨v, hv, hn, g⟩ := h.get hc
      obtain ⟨q, e, g', ft⟩ := filterLines_good t f g (Good.nil w.heap) (by simp [Owns]) (by simp)
      rw [hv]
      simp only [Option.bind_some]
      rw [e]
      exact ⟨_, rfl, h.add (v := ⟨v.ns, v.lines.filter fun x => kept t f x.2⟩) hn (by simpa using g') ft⟩
  | amp k id a =>
    simp only [spec, World.call, World.on]
    cases hc : w.cats[k]? with
    | none => rw [dead k hc]; rfl
    | some c =>
      obtain ⟨v, hv, hn, g⟩ := h.get hc
      obtain ⟨p1, p2⟩ := setAmp_good g id a
      rw [hv]
      simp only [Option.bind_some]
      cases hd : mapFind id v.lines with
      | some l =>
        obtain ⟨q, e, g', ft⟩ := p1 l hd
        rw [e]
        exact ⟨_, rfl, h.put (v := ⟨v.ns, mapPut id { l with nom := a } v.lines⟩) hc hn g' ft⟩
      | none =>
        rw [p2 hd]
        refine ⟨_, rfl, ?_⟩
        rw [h.unchanged hc]; exact h
  | asym k name p =>
    simp only [spec, World.call, World.on]
    cases hc : w.cats[k]? with
    | none => rw [dead k hc]; rfl
    | some c =>
      obtain ⟨v, hv, hn, g⟩ := h.get hc
      obtain ⟨q, e, g', en, ft⟩ := asymLoop_good g name p
      rw [hv]
      simp only [Option.bind_some]
      rw [e]
      have ev : (⟨c.ns, v.lines⟩ : VCat K) = v := by rw [hn]
      rw [ev] at g' en ⊢
      cases (asymV name p v).2 with
      | none => exact ⟨_, rfl, h.put hc en.symm g' ft⟩
      | some e => exact ⟨_, rfl, h.put hc en.symm g' ft⟩
  | conv k igm =>
    simp only [spec, World.call, World.on]
    cases hc : w.cats[k]? with
    | none => rw [dead k hc]; rfl
    | some c =>
      obtain ⟨v, hv, hn, g⟩ := h.get hc
      obtain ⟨q, e, g', ft⟩ := convLoop_good g igm
      rw [hv]
      simp only [Option.bind_some]
      rw [e]
      have ev : (⟨c.ns, v.lines⟩ : VCat K) = v := by rw [hn]
      rw [ev] at g'
      exact ⟨_, rfl, h.put (v := convV igm v) hc hn g' ft⟩

theorem empty_sim : Sim (World.empty : World K) [] :=
  ⟨rfl, by intro i c v e; simp [World.empty] at e, by intro i j c d e; simp [World.empty] at e, by intro a v e; simp [World.empty] at e⟩

/-- **C187** (refinement). Whatever the history of calls, the program is undefined exactly when the specification is, throws the same exceptions at the same calls, and each
of its catalogues holds, read through its pointers, the lines of the specification. -/
theorem run_sim : ∀ (cs : List (Call K)) {w : World K} {s : List (VCat K)}, Sim w s →
    match specRun s cs with
    | none => w.run cs = none
    | some (s', es) => ∃ w', w.run cs = some (w', es) ∧ Sim w' s' := by
  intro cs
  induction cs with
  | nil => intro w s h; exact ⟨w, rfl, h⟩
  | cons c cs ih =>
    intro w s h
    have hc := call_sim h c
    have e0 : w.run (c :: cs) = match w.call c with
      | .ub => none
      | .done w' => (World.run w' cs).map fun r => (r.1, none :: r.2)
      | .thrown e w' => (World.run w' cs).map fun r => (r.1, some e :: r.2) := rfl
    rw [e0]
    unfold specRun
    cases hs : spec s c with
    | none =>
      rw [hs] at hc
      simp only at hc
      rw [hc]; rfl
    | some r =>
      obtain ⟨s1, e1⟩ := r
      rw [hs] at hc
      simp only [Option.bind_some]
      cases e1 with
      | none =>
        obtain ⟨w1, e2, h1⟩ := hc
        rw [e2]
        have := ih h1
        cases hr : specRun s1 cs with
        | none => rw [hr] at this; simp only at this; simp [this]
        | some r =>
          rw [hr] at this
          obtain ⟨w2, e3, h2⟩ := this
          exact ⟨w2, by simp [e3], h2⟩
      | some e =>
        obtain ⟨w1, e2, h1⟩ := hc
        rw [e2]
        have := ih h1
        cases hr : specRun s1 cs with
        | none => rw [hr] at this; simp only at this; simp [this]
        | some r =>
          rw [hr] at this
          obtain ⟨w2, e3, h2⟩ := this
          exact ⟨w2, by simp [e3], h2⟩

theorem C187_refines (cs : List (Call K)) :
    match specRun [] cs with
    | none => (World.empty : World K).run cs = none
    | some (s, es) => ∃ w, (World.empty : World K).run cs = some (w, es) ∧ w.cats.length = s.length ∧
        ∀ (i : Nat) (c : Cat K (Option Nat)) (v : VCat K), w.cats[i]? = some c → s[i]? = some v → view w.heap c = .ok v := by
  have := run_sim cs (empty_sim (K := K))
  cases hs : specRun [] cs with
  | none => rw [hs] at this; exact this
  | some r =>
    rw [hs] at this
    obtain ⟨w, e, h⟩ := this
    refine ⟨w, e, h.len, ?_⟩
    intro i c v h1 h2
    obtain ⟨hn, g⟩ := h.good i c v h1 h2
    have := g.view c.ns
    have ec : (⟨c.ns, c.lines⟩ : Cat K (Option Nat)) = c := rfl
    rw [ec, hn] at this
    exact this

/-- **C187** (memory). After any history, each live profile belongs to one line of one catalogue and to no other, and every line has a live profile: nothing is lost, shared or used after its
deletion. -/
theorem C187_memory (cs : List (Call K)) {w : World K} {es} (h : (World.empty : World K).run cs = some (w, es)) :
    (∀ a v, w.heap[a]? = some (some v) → ∃ (i : Nat) (c : Cat K (Option Nat)) (x : ℤ × Ln K), w.cats[i]? = some c ∧ x ∈ c.lines ∧ x.2.prof = some a ∧
      ∀ (j : Nat) (d : Cat K (Option Nat)) (y : ℤ × Ln K), w.cats[j]? = some d → y ∈ d.lines → y.2.prof = some a → j = i ∧ y.1 = x.1) ∧
    (∀ (i : Nat) (c : Cat K (Option Nat)) (x : ℤ × Ln K), w.cats[i]? = some c → x ∈ c.lines → ∃ a v, x.2.prof = some a ∧ w.heap[a]? = some (some v)) := by
  have := run_sim cs (empty_sim (K := K))
  cases hs : specRun [] cs with
  | none => rw [hs] at this; simp only at this; rw [this] at h; cases h
  | some r =>
    rw [hs] at this
    obtain ⟨w', e, sm⟩ := this
    rw [h] at e
    cases e
    constructor
    · intro a v ha
      obtain ⟨i, c, h1, x, h2, h3⟩ := sm.noleak a v ha
      refine ⟨i, c, x, h1, h2, h3, ?_⟩
      intro j d y h4 h5 h6
      by_cases ij : j = i
      · subst ij
        rw [h1] at h4; cases h4
        obtain ⟨v', _, _, g⟩ := sm.get h1
        exact ⟨rfl, g.inj y h5 x h2 a h6 h3⟩
      · exact absurd ⟨x, h2, h3⟩ (sm.apart j i d c h4 h1 ij a ⟨y, h5, h6⟩)
    · intro i c x h1 h2
      obtain ⟨v', _, _, g⟩ := sm.get h1
      exact g.null h2

end LineDef
end Amazed
