import Verif.Model.Calib
import Mathlib.Data.List.Perm.Subperm
import Mathlib.Data.List.Nodup
import Mathlib.Data.List.Flatten
import Mathlib.Data.Rat.Defs
import Mathlib.Algebra.Field.Rat
import Mathlib.Algebra.BigOperators.Group.List.Basic
import Mathlib.Tactic.FieldSimp
import Mathlib.Tactic.SplitIfs

set_option linter.unusedVariables false
set_option linter.unusedSectionVars false
set_option linter.unusedSimpArgs false
namespace Amazed
namespace Calib

section ratios
variable {K : Type} [Field K]

theorem setAmps_length (main : List String) : ∀ (rows : List (String × K)) (l : List K), (setAmps main rows l).length = l.length
  | [], l => rfl
  | w :: r, l => by
    show (setAmps main r _).length = _
    rw [setAmps_length main r, List.length_set]

theorem idx_of_get {main : List String} {i : Nat} {s t : String} (ht : t ∈ main) (hi : main[i]? = some s) (h : main.idxOf t = i) : t = s := by
  have h1 := List.idxOf_lt_length_iff.2 ht
  have h2 : main[main.idxOf t]? = some t := by rw [List.getElem?_eq_getElem h1, List.getElem_idxOf]
  rw [h, hi] at h2
  exact (Option.some.inj h2).symm

theorem setAmps_other {main : List String} {i : Nat} {s : String} (hi : main[i]? = some s) :
    ∀ (rows : List (String × K)) (l : List K), (∀ w ∈ rows, w.1 ∈ main) → (∀ w ∈ rows, w.1 ≠ s) → (setAmps main rows l)[i]? = l[i]?
  | [], l, _, _ => rfl
  | w :: r, l, h1, h2 => by
    show (setAmps main r _)[i]? = _
    rw [setAmps_other hi r _ (fun x hx => h1 x (List.mem_cons_of_mem _ hx)) (fun x hx => h2 x (List.mem_cons_of_mem _ hx))]
    exact List.getElem?_set_ne fun h => h2 w List.mem_cons_self (idx_of_get (h1 w List.mem_cons_self) hi h)

theorem setAmps_get {main : List String} (hm : main.Nodup) {i : Nat} {s : String} {a : K} (hi : main[i]? = some s) :
    ∀ (rows : List (String × K)) (l : List K), (∀ w ∈ rows, w.1 ∈ main) → (rows.map Prod.fst).Nodup → l.length = main.length → (s, a) ∈ rows →
      (setAmps main rows l)[i]? = some a
  | [], l, _, _, _, h => absurd h (by simp)
  | w :: r, l, h1, h2, h3, h => by
    show (setAmps main r (l.set (main.idxOf w.1) w.2))[i]? = some a
    rw [List.map_cons, List.nodup_cons] at h2
    have hlt : i < main.length := (List.getElem?_eq_some_iff.1 hi).1
    rcases List.mem_cons.1 h with rfl | h
    · rw [setAmps_other hi r _ (fun x hx => h1 x (List.mem_cons_of_mem _ hx)) fun x hx he => h2.1 (List.mem_map.2 ⟨x, hx, he⟩)]
      have : main.idxOf s = i := by
        have e : main[i] = s := (List.getElem?_eq_some_iff.1 hi).2
        rw [← e]
        exact List.Nodup.idxOf_getElem hm i hlt
      show (l.set (main.idxOf s) a)[i]? = some a
      rw [this]
      exact List.getElem?_set_self (by rw [h3]; exact hlt)
    · exact setAmps_get hm hi r _ (fun x hx => h1 x (List.mem_cons_of_mem _ hx)) h2.2 (by rw [List.length_set]; exact h3) h

/-- C216: a ratio catalog is accepted when its lines are different, and are all lines of the main catalog; it has then one amplitude for each line
of the main catalog, at the same place: that of its row of the same identity (name, position and type), or zero without such a row. -/
theorem C216_amplitudes {main : List String} (hm : main.Nodup) (rows : List (String × K)) :
    ((∃ l, ratioAmps main rows = .ok l) ↔ (rows.map Prod.fst).Nodup ∧ ∀ w ∈ rows, w.1 ∈ main) ∧
    (∀ l : List K, ratioAmps main rows = .ok l → l.length = main.length ∧ ∀ (i : Nat) (s : String), main[i]? = some s →
      (∀ a, (s, a) ∈ rows → l[i]? = some a) ∧ ((∀ a, (s, a) ∉ rows) → l[i]? = some 0)) := by
  have hany : rows.any (fun w => !main.contains w.1) = true ↔ ¬ ∀ w ∈ rows, w.1 ∈ main := by
    rw [List.any_eq_true]
    constructor
    · rintro ⟨w, hw, h⟩ hall
      have := hall w hw
      rw [← List.contains_iff_mem] at this
      rw [this] at h
      cases h
    · intro h
      by_contra hc
      refine h fun w hw => ?_
      by_contra hn
      refine hc ⟨w, hw, ?_⟩
      cases hb : main.contains w.1
      · rfl
      · exact absurd (List.contains_iff_mem.1 hb) hn
  constructor
  · constructor
    · rintro ⟨l, h⟩
      unfold ratioAmps at h
      split_ifs at h with h1 h2
      exact ⟨h1, Classical.not_not.1 fun hc => h2 (hany.2 hc)⟩
    · rintro ⟨h1, h2⟩
      unfold ratioAmps
      rw [if_neg (not_not.2 h1), if_neg (fun h => hany.1 h h2)]
      exact ⟨_, rfl⟩
  · intro l h
    unfold ratioAmps at h
    split_ifs at h with h1 h2
    cases h
    have g1 := h1
    have g2 : ∀ w ∈ rows, w.1 ∈ main := Classical.not_not.1 fun hc => h2 (hany.2 hc)
    refine ⟨by rw [setAmps_length, List.length_replicate], fun i s hi => ⟨fun a ha => ?_, fun hn => ?_⟩⟩
    · exact setAmps_get hm hi rows _ g2 g1 List.length_replicate ha
    · rw [setAmps_other hi rows _ g2 fun w hw he => hn w.2 (by rw [← he]; exact hw)]
      have hlt : i < main.length := (List.getElem?_eq_some_iff.1 hi).1
      rw [List.getElem?_replicate, if_pos hlt]

theorem ratioLoop_ok {main : List String} {n : Nat} {p : K} : ∀ (files : List (String × List (String × K))) {l : List (Ratio K)},
    ratioLoop main n p files = .ok l →
      l.map (fun r => (r.name, r.ism)) = files.flatMap (fun f => (List.range n).map fun k => (f.1, k)) ∧ l.length = files.length * n ∧
      (∀ r ∈ l, r.prior = p ∧ ∃ f ∈ files, r.name = f.1 ∧ ratioAmps main f.2 = .ok r.amps) ∧ ∀ f ∈ files, ∃ a, ratioAmps main f.2 = .ok a
  | [], l, h => by cases h; simp
  | f :: r, l, h => by
    obtain ⟨a, h1, h2⟩ := Res.bind_eq_ok.1 (show ratioAmps main f.2 >>= _ = _ from h)
    obtain ⟨t, h3, h4⟩ := Res.bind_eq_ok.1 h2
    cases h4
    obtain ⟨i1, i2, i3, i4⟩ := ratioLoop_ok r h3
    refine ⟨?_, ?_, ?_, ?_⟩
    · rw [List.map_append, i1, List.flatMap_cons, List.map_map]; rfl
    · rw [List.length_append, List.length_map, List.length_range, i2, List.length_cons, Nat.add_mul, Nat.one_mul, Nat.add_comm]
    · intro x hx
      rcases List.mem_append.1 hx with hx | hx
      · obtain ⟨k, -, rfl⟩ := List.mem_map.1 hx
        exact ⟨rfl, f, List.mem_cons_self, rfl, h1⟩
      · obtain ⟨j1, g, j2, j3⟩ := i3 x hx
        exact ⟨j1, g, List.mem_cons_of_mem _ j2, j3⟩
    · intro x hx
      rcases List.mem_cons.1 hx with rfl | hx
      · exact ⟨a, h1⟩
      · exact i4 x hx

theorem ratioLoop_of {main : List String} {n : Nat} {p : K} : ∀ (files : List (String × List (String × K))),
    (∀ f ∈ files, ∃ a, ratioAmps main f.2 = .ok a) → ∃ l, ratioLoop main n p files = .ok l
  | [], _ => ⟨[], rfl⟩
  | f :: r, h => by
    obtain ⟨a, ha⟩ := h f List.mem_cons_self
    obtain ⟨t, ht⟩ := ratioLoop_of (n := n) (p := p) r fun x hx => h x (List.mem_cons_of_mem _ hx)
    refine ⟨(List.range n).map (fun k => ⟨f.1, a, k, p⟩) ++ t, ?_⟩
    show (ratioAmps main f.2 >>= _) = _
    rw [ha, Res.bind_ok, ht, Res.bind_ok]

theorem sum_const {p : K} : ∀ l : List K, (∀ x ∈ l, x = p) → l.sum = (l.length : K) * p
  | [], _ => by simp
  | x :: r, h => by
    rw [List.sum_cons, sum_const r fun y hy => h y (List.mem_cons_of_mem _ hy), h x List.mem_cons_self, List.length_cons, Nat.cast_add, Nat.cast_one,
      add_mul, one_mul, add_comm]

/-- C216: the list has each catalog of the directory once for each dust coefficient, in order, with the amplitudes of its own file; the priors are
equal and sum to one. One catalog that is not accepted, and there is no list. -/
theorem C216_list [CharZero K] {main : List String} {n : Nat} {files : List (String × List (String × K))} :
    ((∃ l, loadRatios main n files = .ok l) ↔ files ≠ [] ∧ n ≠ 0 ∧ ∀ f ∈ files, ∃ a, ratioAmps main f.2 = .ok a) ∧
    ∀ l, loadRatios main n files = .ok l →
      l.map (fun r => (r.name, r.ism)) = files.flatMap (fun f => (List.range n).map fun k => (f.1, k)) ∧
      (∀ r ∈ l, ∃ f ∈ files, r.name = f.1 ∧ ratioAmps main f.2 = .ok r.amps) ∧
      (l.map Ratio.prior).sum = 1 ∧ ∀ r ∈ l, ∀ s ∈ l, r.prior = s.prior := by
  constructor
  · constructor
    · rintro ⟨l, h⟩
      unfold loadRatios at h
      split_ifs at h with h1 h2
      exact ⟨h1, h2, (ratioLoop_ok files h).2.2.2⟩
    · rintro ⟨h1, h2, h3⟩
      unfold loadRatios
      rw [if_neg h1, if_neg h2]
      exact ratioLoop_of files h3
  · intro l h
    unfold loadRatios at h
    split_ifs at h with h1 h2
    obtain ⟨i1, i2, i3, -⟩ := ratioLoop_ok files h
    refine ⟨i1, fun r hr => (i3 r hr).2, ?_, fun r hr s hs => by rw [(i3 r hr).1, (i3 s hs).1]⟩
    rw [sum_const (p := 1 / ((n : K) * (files.length : K))) _ fun x hx => by
      obtain ⟨r, hr, rfl⟩ := List.mem_map.1 hx
      exact (i3 r hr).1]
    rw [List.length_map, i2, Nat.cast_mul]
    have hf : (files.length : K) ≠ 0 := by
      rw [Nat.cast_ne_zero]
      exact fun hc => h1 (List.length_eq_zero_iff.1 hc)
    have hn : (n : K) ≠ 0 := Nat.cast_ne_zero.2 h2
    field_simp

end ratios

/-- The hypotheses are met. -/
example : loadRatios ["a", "b", "c"] 2 [("r1", [("c", (3 : ℚ)), ("a", 1)]), ("r2", [("b", 5)])] =
    .ok [⟨"r1", [1, 0, 3], 0, 1 / 4⟩, ⟨"r1", [1, 0, 3], 1, 1 / 4⟩, ⟨"r2", [0, 5, 0], 0, 1 / 4⟩, ⟨"r2", [0, 5, 0], 1, 1 / 4⟩] ∧
    loadRatios ["a", "b", "c"] 2 [("r1", [("d", (3 : ℚ))])] = .throw .LINE_RATIO_UNKNOWN_LINE ∧
    loadRatios ["a", "b", "c"] 2 [("r1", [("a", (3 : ℚ)), ("a", 2)])] = .throw .DUPLICATED_LINES := by decide +kernel

section bands
variable {B : Type}

theorem bandLoop_ok (req : List String) : ∀ (files acc : List (String × B)) {l : List (String × B)}, bandLoop req files acc = .ok l →
    (acc.map Prod.fst).Nodup → l = acc ++ files.filter (fun f => req.contains f.1) ∧ (l.map Prod.fst).Nodup
  | [], acc, l, h, hn => by cases h; exact ⟨(List.append_nil _).symm, hn⟩
  | f :: r, acc, l, h, hn => by
    unfold bandLoop at h
    by_cases h1 : req.contains f.1 = true
    · rw [if_pos h1] at h
      by_cases h2 : (acc.map Prod.fst).contains f.1 = true
      · rw [if_pos h2] at h; cases h
      · rw [if_neg h2] at h
        have h2' : f.1 ∉ acc.map Prod.fst := fun hc => h2 (List.contains_iff_mem.2 hc)
        have hn' : ((acc ++ [f]).map Prod.fst).Nodup := by
          rw [List.map_append, List.map_cons, List.map_nil]
          exact List.nodup_append.2 ⟨hn, List.nodup_singleton _, fun a ha b hb => by
            rw [List.mem_singleton.1 hb]; rintro rfl; exact h2' ha⟩
        obtain ⟨i1, i2⟩ := bandLoop_ok req r (acc ++ [f]) h hn'
        refine ⟨?_, i2⟩
        rw [i1, List.filter_cons_of_pos (p := fun f : String × B => req.contains f.1) h1, List.append_assoc]
        rfl
    · rw [if_neg h1] at h
      rw [List.filter_cons_of_neg (p := fun f : String × B => req.contains f.1) h1]
      exact bandLoop_ok req r acc h hn

theorem bandLoop_of (req : List String) : ∀ (files acc : List (String × B)),
    ((acc ++ files.filter (fun f => req.contains f.1)).map Prod.fst).Nodup →
    bandLoop req files acc = .ok (acc ++ files.filter (fun f => req.contains f.1))
  | [], acc, _ => by rw [List.filter_nil, List.append_nil]; rfl
  | f :: r, acc, hn => by
    unfold bandLoop
    by_cases h1 : req.contains f.1 = true
    · rw [List.filter_cons_of_pos (p := fun f : String × B => req.contains f.1) h1] at hn ⊢
      rw [if_pos h1]
      have h2 : ¬ (acc.map Prod.fst).contains f.1 = true := by
        rw [List.contains_iff_mem]
        intro hc
        rw [List.map_append, List.nodup_append] at hn
        exact hn.2.2 _ hc _ (List.mem_map.2 ⟨f, List.mem_cons_self, rfl⟩) rfl
      rw [if_neg h2, bandLoop_of req r (acc ++ [f]) (by rw [List.append_assoc]; exact hn), List.append_assoc]
      rfl
    · rw [List.filter_cons_of_neg (p := fun f : String × B => req.contains f.1) h1] at hn ⊢
      rw [if_neg h1]
      exact bandLoop_of req r acc hn

/-- C217 (partial: for bands that are not asked twice): the bands are loaded when the directory has exactly one curve for each of the bands asked, and
then those curves, and no other, are the photometric bands. -/
theorem C217_bands_partial {req : List String} (hr : req.Nodup) (files l : List (String × B)) :
    loadBands req files = .ok l ↔ files ≠ [] ∧ l = files.filter (fun f => req.contains f.1) ∧ (l.map Prod.fst).Perm req := by
  unfold loadBands
  constructor
  · intro h
    split_ifs at h with h0
    obtain ⟨t, h1, h2⟩ := Res.bind_eq_ok.1 h
    split_ifs at h2 with h3
    cases h2
    obtain ⟨i1, i2⟩ := bandLoop_ok req files [] h1 List.nodup_nil
    rw [List.nil_append] at i1
    refine ⟨fun hc => h0 (by rw [hc]; rfl), i1, ?_⟩
    refine (List.subperm_of_subset i2 fun x hx => ?_).perm_of_length_le (by rw [List.length_map]; exact (Classical.not_not.1 h3).le)
    obtain ⟨f, hf, rfl⟩ := List.mem_map.1 hx
    rw [i1] at hf
    exact List.contains_iff_mem.1 (List.mem_filter.1 hf).2
  · rintro ⟨h0, rfl, hp⟩
    rw [if_neg (by simpa using h0), bandLoop_of req files [] (by rw [List.nil_append]; exact hp.nodup_iff.2 hr), Res.bind_ok, List.nil_append,
      if_neg (not_not.2 ?_)]
    rw [← hp.length_eq, List.length_map]

/-- Two curves of one band asked: refused. A band without curve: refused. -/
theorem C217_refused {req : List String} (hr : req.Nodup) (files : List (String × B)) (b : String) (hb : b ∈ req)
    (h : (files.filter fun f => f.1 == b).length ≠ 1) : ∀ l, loadBands req files ≠ .ok l := by
  intro l hl
  obtain ⟨-, rfl, hp⟩ := (C217_bands_partial hr files l).1 hl
  refine h ?_
  have h1 := hp.count_eq b
  rw [List.count_eq_one_of_mem hr hb] at h1
  rw [← h1, List.count, List.countP_map, List.countP_filter, List.countP_eq_length_filter]
  congr 1
  refine List.filter_congr fun f _ => ?_
  show (f.1 == b) = ((f.1 == b) && req.contains f.1)
  cases hfb : (f.1 == b)
  · rfl
  · have e : f.1 = b := by simpa using hfb
    rw [e, List.contains_iff_mem.2 hb]
    rfl

/-- A band asked twice: refused, although each band asked has one curve; the message lists no unknown band. -/
theorem C217_twice_counterexample : loadBands ["H", "H"] [("H", 1), ("J", 2)] = .throw .BAD_PARAMETER_VALUE ∧
    ∀ b ∈ ["H", "H"], ([("H", 1), ("J", 2)].filter fun f => f.1 == b).length = 1 := by decide +kernel

example : loadBands ["H", "J"] [("J", 2), ("K", 3), ("H", 1)] = .ok [("J", 2), ("H", 1)] := by decide +kernel

end bands

/-- Specification: the identifier of an attribute is the first of its name in the catalog of its own model and method. -/
def Own (cats : String → String → Option (List (String × Nat))) (a : Attr) (i : Nat) : Prop :=
  ∃ l, cats a.obj a.method = some l ∧ ∃ before after, l = before ++ (a.line, i) :: after ∧ ∀ w ∈ before, w.1 ≠ a.line

theorem rowOf_iff (s : String) (i : Nat) : ∀ l : List (String × Nat),
    rowOf s l = some i ↔ ∃ before after, l = before ++ (s, i) :: after ∧ ∀ w ∈ before, w.1 ≠ s
  | [] => by simp [rowOf]
  | w :: r => by
    unfold rowOf
    by_cases h : w.1 = s
    · rw [if_pos h]
      constructor
      · intro e
        refine ⟨[], r, ?_, by simp⟩
        rw [List.nil_append, ← h, ← Option.some.inj e]
      · rintro ⟨b, c, e, hb⟩
        cases b with
        | nil => rw [(List.cons.inj e).1]
        | cons x b =>
          rw [List.cons_append] at e
          exact absurd h ((List.cons.inj e).1 ▸ hb x List.mem_cons_self)
    · rw [if_neg h, rowOf_iff s i r]
      constructor
      · rintro ⟨b, c, rfl, hb⟩
        refine ⟨w :: b, c, rfl, fun x hx => ?_⟩
        rcases List.mem_cons.1 hx with rfl | hx
        · exact h
        · exact hb x hx
      · rintro ⟨b, c, e, hb⟩
        cases b with
        | nil => rw [(List.cons.inj e).1] at h; exact absurd rfl h
        | cons x b =>
          rw [List.cons_append] at e
          exact ⟨b, c, (List.cons.inj e).2, fun y hy => hb y (List.mem_cons_of_mem _ hy)⟩

theorem idsLoop_own {cats : String → String → Option (List (String × Nat))} : ∀ (attrs : List Attr) (lines : Option (List (String × Nat)))
    (m m' : String → Option Nat), (∀ a ∈ attrs, ∃ l, cats a.obj a.method = some l) → idsLoop cats attrs lines m = some m' →
    (∀ s, (∀ a ∈ attrs, a.line ≠ s) → m' s = m s) ∧
    (∀ s, (∃ a ∈ attrs, a.line = s) → ∃ a ∈ attrs, a.line = s ∧ ∃ i, m' s = some i ∧ Own cats a i)
  | [], lines, m, m', _, h => by
    cases h
    exact ⟨fun _ _ => rfl, fun s ⟨a, ha, _⟩ => absurd ha (by simp)⟩
  | a :: r, lines, m, m', hc, h => by
    obtain ⟨l, hl⟩ := hc a List.mem_cons_self
    have hcat : catOf cats a lines = some l := by unfold catOf; rw [hl]
    unfold idsLoop at h
    rw [hcat] at h
    obtain ⟨i, h1, h2⟩ := Option.bind_eq_some_iff.1 h
    obtain ⟨i1, i2⟩ := idsLoop_own r (some l) (put m a.line i) m' (fun x hx => hc x (List.mem_cons_of_mem _ hx)) h2
    constructor
    · intro s hs
      rw [i1 s fun x hx => hs x (List.mem_cons_of_mem _ hx)]
      exact if_neg fun e => hs a List.mem_cons_self e.symm
    · intro s hs
      by_cases hr : ∃ x ∈ r, x.line = s
      · obtain ⟨x, hx, hxs⟩ := i2 s hr
        exact ⟨x, List.mem_cons_of_mem _ hx, hxs⟩
      · have hr' : ∀ x ∈ r, x.line ≠ s := fun x hx he => hr ⟨x, hx, he⟩
        obtain ⟨x, hx, rfl⟩ := hs
        rcases List.mem_cons.1 hx with rfl | hx
        · exact ⟨x, List.mem_cons_self, rfl, i, by rw [i1 _ hr']; exact if_pos rfl, l, hl, (rowOf_iff _ _ _).1 h1⟩
        · exact absurd rfl (hr' x hx)

/-- C218 (partial: every attribute has a catalog, and one of the attributes of each name is right): the names with an identifier are those of the
attributes, and the identifier of a name is that of an attribute of this name in the catalog of its model and method. -/
theorem C218_ids_partial {cats : String → String → Option (List (String × Nat))} {attrs : List Attr} {m : String → Option Nat}
    (hc : ∀ a ∈ attrs, ∃ l, cats a.obj a.method = some l) (h : lineIds cats attrs = some m) :
    (∀ s, m s ≠ none ↔ ∃ a ∈ attrs, a.line = s) ∧ ∀ s i, m s = some i → ∃ a ∈ attrs, a.line = s ∧ Own cats a i := by
  obtain ⟨h1, h2⟩ := idsLoop_own attrs none _ m hc h
  constructor
  · intro s
    constructor
    · intro hs
      by_contra hn
      exact hs (h1 s fun a ha he => hn ⟨a, ha, he⟩)
    · intro hs
      obtain ⟨a, -, -, i, hi, -⟩ := h2 s hs
      rw [hi]
      simp
  · intro s i hi
    by_cases hs : ∃ a ∈ attrs, a.line = s
    · obtain ⟨a, ha, e, j, hj, ho⟩ := h2 s hs
      rw [hi] at hj
      cases hj
      exact ⟨a, ha, e, ho⟩
    · rw [h1 s fun a ha he => hs ⟨a, ha, he⟩] at hi
      cases hi

/-- C218: with one attribute for each name of line, each attribute has the identifier of its line in its own catalog. -/
theorem C218_unique {cats : String → String → Option (List (String × Nat))} {attrs : List Attr} {m : String → Option Nat}
    (hc : ∀ a ∈ attrs, ∃ l, cats a.obj a.method = some l) (hu : ∀ a ∈ attrs, ∀ b ∈ attrs, a.line = b.line → a = b)
    (h : lineIds cats attrs = some m) : ∀ a ∈ attrs, ∃ i, m a.line = some i ∧ Own cats a i := by
  intro a ha
  obtain ⟨b, hb, e, i, hi, ho⟩ := (idsLoop_own attrs none _ m hc h).2 a.line ⟨a, ha, rfl⟩
  rw [hu b hb a ha e] at ho
  exact ⟨i, hi, ho⟩

/-- The catalogs of the counterexamples. -/
def cats0 (o m : String) : Option (List (String × Nat)) :=
  if m = "lineMeasSolve" then (if o = "galaxy" then some [("Halpha", 3), ("Hbeta", 4)] else if o = "qso" then some [("Halpha", 7)] else none) else none

/-- C218 is false of the code: an attribute of a model without catalog has the identifier of a line of the model before. -/
theorem C218_stale_counterexample :
    (lineIds cats0 [⟨"galaxy", "lineMeasSolve", "Halpha"⟩, ⟨"star", "lineMeasSolve", "Hbeta"⟩]).bind (fun m => m "Hbeta") = some 4 ∧
    cats0 "star" "lineMeasSolve" = none ∧
    (lineIds cats0 [⟨"star", "lineMeasSolve", "Hbeta"⟩, ⟨"galaxy", "lineMeasSolve", "Halpha"⟩]).bind (fun m => m "Hbeta") = none := by decide +kernel

/-- C218 is false of the code: two models with a line of the same name have one identifier for both. -/
theorem C218_shared_counterexample :
    (lineIds cats0 [⟨"galaxy", "lineMeasSolve", "Halpha"⟩, ⟨"qso", "lineMeasSolve", "Halpha"⟩]).bind (fun m => m "Halpha") = some 7 ∧
    ¬ Own cats0 ⟨"galaxy", "lineMeasSolve", "Halpha"⟩ 7 := by
  refine ⟨by decide +kernel, ?_⟩
  rintro ⟨l, hl, hi⟩
  have hi := (rowOf_iff _ _ _).2 hi
  have : l = [("Halpha", 3), ("Hbeta", 4)] := by
    have e : cats0 "galaxy" "lineMeasSolve" = some [("Halpha", 3), ("Hbeta", 4)] := by decide
    rw [e] at hl
    exact (Option.some.inj hl).symm
  subst this
  exact absurd hi (by decide)

end Calib
end Amazed
