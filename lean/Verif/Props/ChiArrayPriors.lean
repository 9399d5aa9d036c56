import Verif.Model.ChiArray
import Verif.Props.TplFitTotal
import Verif.Props.LmResultProps
import Verif.Props.PdfzCombine

set_option linter.unusedVariables false
set_option linter.unusedSectionVars false

/-! # C107: the presence of strong lines and the priors on the redshift -/

namespace Amazed
namespace ChiArray
open LmResult TplFit

/-- A solution with one entry per line in each vector, all lines being in the catalogue (the solution filled by a fit, or the empty
default one). -/
structure WF (cat : Cat) (s : Sol) : Prop where
  ids : s.lineId.length = s.amps.length
  outs : s.out.length = s.amps.length
  known : ∀ id ∈ s.lineId, ∃ l, cat id = some l

/-- Line `j` of the solution is line `l` of the catalogue, is in the wavelength range and has the amplitude `a` (not NaN). -/
def Seen (cat : Cat) (s : Sol) (j : Nat) (l : LineInfo) (a : ℝ) : Prop :=
  ∃ id, s.lineId[j]? = some id ∧ cat id = some l ∧ s.out[j]? = some false ∧ s.amps[j]? = some (some a)

/-- A line of the type asked for. -/
def OfType (filter : Int) (l : LineInfo) : Prop := (filter = 1 → l.emission = true) ∧ (filter = 2 → l.emission = false)

theorem matches_iff (filter : Int) (l : LineInfo) : matches_ filter l = true ↔ l.strong = true ∧ OfType filter l := by
  unfold matches_ OfType
  cases l.strong <;> cases l.emission <;> by_cases h1 : filter = 1 <;> by_cases h2 : filter = 2 <;> simp_all

theorem pos_iff (a : Option ℝ) : pos a = true ↔ ∃ v, a = some v ∧ 0 < v := by
  unfold pos
  cases a <;> simp

theorem strongFrom_spec (cat : Cat) (filter : Int) (s : Sol) (hs : WF cat s) : ∀ (n j : Nat), j + n = s.amps.length →
    ∃ b, strongFrom cat filter s j n = .ok b ∧
      (b = true ↔ ∃ i l a, j ≤ i ∧ Seen cat s i l a ∧ 0 < a ∧ l.strong = true ∧ OfType filter l) := by
  intro n
  induction n with
  | zero =>
    intro j hj
    refine ⟨false, rfl, ?_⟩
    simp only [Bool.false_eq_true, false_iff]
    rintro ⟨i, l, a, hi, ⟨id, h1, _, _, h4⟩, _⟩
    have := (List.getElem?_eq_some_iff.1 h4).1
    omega
  | succ n ih =>
    intro j hj
    have hj1 : j < s.lineId.length := by rw [hs.ids]; omega
    have hj2 : j < s.out.length := by rw [hs.outs]; omega
    have hj3 : j < s.amps.length := by omega
    obtain ⟨l, hl⟩ := hs.known (s.lineId[j]) (List.getElem_mem _)
    obtain ⟨b, hb, hb'⟩ := ih (j + 1) (by omega)
    -- the lines after `j`, when `j` itself does not count
    have hnext : (¬ ∃ l a, Seen cat s j l a ∧ 0 < a ∧ l.strong = true ∧ OfType filter l) →
        (b = true ↔ ∃ i l a, j ≤ i ∧ Seen cat s i l a ∧ 0 < a ∧ l.strong = true ∧ OfType filter l) := by
      intro hn
      rw [hb']
      constructor
      · rintro ⟨i, l, a, hi, h⟩
        exact ⟨i, l, a, by omega, h⟩
      · rintro ⟨i, l, a, hi, h⟩
        refine ⟨i, l, a, ?_, h⟩
        rcases Nat.eq_or_lt_of_le hi with e | e
        · subst e; exact absurd ⟨l, a, h⟩ hn
        · exact e
    have hself : ∀ l' a, Seen cat s j l' a → l' = l ∧ s.out[j] = false ∧ s.amps[j] = some a := by
      rintro l' a ⟨id, h1, h2, h3, h4⟩
      rw [List.getElem?_eq_getElem hj1, Option.some.injEq] at h1
      subst h1
      rw [hl, Option.some.injEq] at h2
      rw [List.getElem?_eq_getElem hj2, Option.some.injEq] at h3
      rw [List.getElem?_eq_getElem hj3, Option.some.injEq] at h4
      exact ⟨h2.symm, h3, h4⟩
    unfold strongFrom
    rw [Res.at_of_lt hj1, Res.bind_ok]
    unfold Cat.get
    rw [hl]
    simp only [Res.bind_ok]
    cases hm : matches_ filter l with
    | false =>
      simp only [Bool.not_false, if_true]
      refine ⟨b, hb, hnext ?_⟩
      rintro ⟨l', a, h1, h2, h3⟩
      obtain ⟨rfl, _⟩ := hself l' a h1
      have := (matches_iff filter l').2 h3
      rw [hm] at this
      simp at this
    | true =>
      simp only [Bool.not_true, Bool.false_eq_true, if_false]
      rw [Res.at_of_lt hj2, Res.bind_ok, Res.at_of_lt hj3, Res.bind_ok]
      by_cases hv : (!s.out[j] && pos s.amps[j]) = true
      · rw [if_pos hv]
        refine ⟨true, rfl, ?_⟩
        simp only [true_iff]
        rw [Bool.and_eq_true, Bool.not_eq_true', pos_iff] at hv
        obtain ⟨v1, v, v2, v3⟩ := hv
        refine ⟨j, l, v, le_rfl, ⟨s.lineId[j], List.getElem?_eq_getElem hj1, hl, ?_, ?_⟩, v3, (matches_iff filter l).1 hm⟩
        · rw [List.getElem?_eq_getElem hj2, v1]
        · rw [List.getElem?_eq_getElem hj3, v2]
      · rw [if_neg hv]
        refine ⟨b, hb, hnext ?_⟩
        rintro ⟨l', a, h1, h2, h3⟩
        obtain ⟨rfl, e1, e2⟩ := hself l' a h1
        apply hv
        rw [Bool.and_eq_true, Bool.not_eq_true', pos_iff]
        exact ⟨e1, a, e2, h2⟩

/-- **C107, strong lines.** One flag per solution: true exactly when a strong line of the type asked for is in the wavelength range with a
positive amplitude. -/
theorem C107_strong_lines (cat : Cat) (filter : Int) (sols : List Sol) (hs : ∀ s ∈ sols, WF cat s) :
    ∃ bs, strongLines cat filter sols = .ok bs ∧ bs.length = sols.length ∧
      ∀ (i : Nat) (s : Sol), sols[i]? = some s →
        (bs[i]? = some true ↔ ∃ j l a, Seen cat s j l a ∧ 0 < a ∧ l.strong = true ∧ OfType filter l) := by
  obtain ⟨bs, hbs⟩ := Res.tab_total (g := fun i : Nat => Res.at_ sols i >>= fun s => strongFrom cat filter s 0 s.amps.length) sols.length (by
    intro i hi
    rw [Res.at_of_lt hi, Res.bind_ok]
    obtain ⟨b, hb, _⟩ := strongFrom_spec cat filter sols[i] (hs _ (List.getElem_mem _)) sols[i].amps.length 0 (by omega)
    exact ⟨b, hb⟩)
  refine ⟨bs, hbs, Res.tab_length _ hbs, ?_⟩
  intro i s hi
  obtain ⟨hlt, rfl⟩ := List.getElem?_eq_some_iff.1 hi
  obtain ⟨b, h1, h2⟩ := Res.tab_get _ hbs i hlt
  rw [Res.at_of_lt hlt, Res.bind_ok] at h2
  obtain ⟨b', h3, h4⟩ := strongFrom_spec cat filter sols[i] (hs _ (List.getElem_mem _)) sols[i].amps.length 0 (by omega)
  rw [h3, Res.ok.injEq] at h2
  subst h2
  rw [h1, Option.some.injEq, h4]
  constructor
  · rintro ⟨j, l, a, _, h⟩; exact ⟨j, l, a, h⟩
  · rintro ⟨j, l, a, h⟩; exact ⟨j, l, a, Nat.zero_le _, h⟩

/-- The strongest emission line among the `n` first lines: the first of largest amplitude. -/
def Strongest (cat : Cat) (s : Sol) (n j : Nat) (l : LineInfo) (a : ℝ) : Prop :=
  j < n ∧ Seen cat s j l a ∧ l.emission = true ∧
    (∀ j' l' a', j' < n → Seen cat s j' l' a' → l'.emission = true → a' ≤ a) ∧
    ∀ j' l' a', j' < j → Seen cat s j' l' a' → l'.emission = true → a' < a

theorem top_spec (cat : Cat) (s : Sol) (hs : WF cat s) : ∃ t, Res.foldN (topStep cat s) 0 s.amps.length none = .ok t ∧
    ((t = none ∧ ∀ j l a, Seen cat s j l a → l.emission = false) ∨
      ∃ j l a, t = some (a, l.name) ∧ Strongest cat s s.amps.length j l a) := by
  obtain ⟨t, h1, h2⟩ := Res.foldN_inv (f := topStep cat s) (fun n t =>
      (t = none ∧ ∀ j l a, j < n → Seen cat s j l a → l.emission = false) ∨ ∃ j l a, t = some (a, l.name) ∧ Strongest cat s n j l a)
    s.amps.length 0 none (.inl ⟨rfl, by intro j l a h; omega⟩) (by
      intro i t _ hi hp
      rw [Nat.zero_add] at hi
      have hj1 : i < s.lineId.length := by rw [hs.ids]; omega
      have hj2 : i < s.out.length := by rw [hs.outs]; omega
      obtain ⟨l, hl⟩ := hs.known (s.lineId[i]) (List.getElem_mem _)
      have hself : ∀ l' a, Seen cat s i l' a → l' = l ∧ s.out[i] = false ∧ s.amps[i] = some a := by
        rintro l' a ⟨id, g1, g2, g3, g4⟩
        rw [List.getElem?_eq_getElem hj1, Option.some.injEq] at g1
        subst g1
        rw [hl, Option.some.injEq] at g2
        rw [List.getElem?_eq_getElem hj2, Option.some.injEq] at g3
        rw [List.getElem?_eq_getElem hi, Option.some.injEq] at g4
        exact ⟨g2.symm, g3, g4⟩
      -- nothing changes when line `i` does not count
      have hskip : (∀ l' a, Seen cat s i l' a → l'.emission = false) →
          ((t = none ∧ ∀ j l a, j < i + 1 → Seen cat s j l a → l.emission = false) ∨
            ∃ j l a, t = some (a, l.name) ∧ Strongest cat s (i + 1) j l a) := by
        intro hn
        rcases hp with ⟨rfl, hp⟩ | ⟨j, l', a, rfl, q1, q2, q3, q4, q5⟩
        · refine .inl ⟨rfl, fun j l a hj hsn => ?_⟩
          rcases Nat.lt_or_ge j i with h | h
          · exact hp j l a h hsn
          · obtain rfl : j = i := by omega
            exact hn l a hsn
        · refine .inr ⟨j, l', a, rfl, by omega, q2, q3, fun j' l'' a' hj' hsn he => ?_, q5⟩
          rcases Nat.lt_or_ge j' i with h | h
          · exact q4 j' l'' a' h hsn he
          · obtain rfl : j' = i := by omega
            rw [hn l'' a' hsn] at he
            simp at he
      unfold topStep
      rw [Res.at_of_lt hj1, Res.bind_ok]
      unfold Cat.get
      rw [hl]
      simp only [Res.bind_ok]
      cases hem : l.emission with
      | false =>
        simp only [Bool.not_false, if_true]
        exact ⟨t, rfl, hskip fun l' a h => by rw [(hself l' a h).1]; exact hem⟩
      | true =>
        simp only [Bool.not_true, Bool.false_eq_true, if_false]
        rw [Res.at_of_lt hj2, Res.bind_ok]
        cases ho : s.out[i] with
        | true =>
          simp only [if_true]
          exact ⟨t, rfl, hskip fun l' a h => by have := (hself l' a h).2.1; rw [ho] at this; simp at this⟩
        | false =>
          simp only [Bool.false_eq_true, if_false]
          rw [Res.at_of_lt hi, Res.bind_ok]
          refine ⟨_, rfl, ?_⟩
          cases ha : s.amps[i] with
          | none =>
            exact hskip fun l' a h => by have := (hself l' a h).2.2; rw [ha] at this; simp at this
          | some v =>
            have hsn : Seen cat s i l v := ⟨s.lineId[i], List.getElem?_eq_getElem hj1, hl, by rw [List.getElem?_eq_getElem hj2, ho],
              by rw [List.getElem?_eq_getElem hi, ha]⟩
            have hval : ∀ l' a, Seen cat s i l' a → a = v := by
              intro l' a h
              have := (hself l' a h).2.2
              rw [ha, Option.some.injEq] at this
              exact this.symm
            rcases hp with ⟨rfl, hp⟩ | ⟨j, l', a, rfl, q1, q2, q3, q4, q5⟩
            · refine .inr ⟨i, l, v, rfl, by omega, hsn, hem, fun j' l' a' hj' h he => ?_, fun j' l' a' hj' h he => ?_⟩
              · rcases Nat.lt_or_ge j' i with h' | h'
                · rw [hp j' l' a' h' h] at he; simp at he
                · obtain rfl : j' = i := by omega
                  exact (hval l' a' h).le
              · rw [hp j' l' a' hj' h] at he; simp at he
            · unfold topUpd
              simp only
              split_ifs with hlt
              · refine .inr ⟨i, l, v, rfl, by omega, hsn, hem, fun j' l'' a' hj' h he => ?_, fun j' l'' a' hj' h he => ?_⟩
                · rcases Nat.lt_or_ge j' i with h' | h'
                  · exact le_trans (q4 j' l'' a' h' h he) hlt.le
                  · obtain rfl : j' = i := by omega
                    exact (hval l'' a' h).le
                · exact lt_of_le_of_lt (q4 j' l'' a' hj' h he) hlt
              · refine .inr ⟨j, l', a, rfl, by omega, q2, q3, fun j' l'' a' hj' h he => ?_, q5⟩
                rcases Nat.lt_or_ge j' i with h' | h'
                · exact q4 j' l'' a' h' h he
                · obtain rfl : j' = i := by omega
                  rw [hval l'' a' h]
                  exact not_lt.1 hlt)
  refine ⟨t, h1, ?_⟩
  rw [Nat.zero_add] at h2
  rcases h2 with ⟨rfl, h2⟩ | h2
  · refine .inl ⟨rfl, fun j l a h => h2 j l a ?_ h⟩
    obtain ⟨id, _, _, _, h4⟩ := h
    exact (List.getElem?_eq_some_iff.1 h4).1
  · exact .inr h2

/-- **C107, H-alpha.** One flag per solution: true exactly when the strongest emission line in the wavelength range (the first of largest
amplitude, NaN amplitudes skipped) is H-alpha, with a positive amplitude. -/
theorem C107_ha_strongest (cat : Cat) (sols : List Sol) (hs : ∀ s ∈ sols, WF cat s) :
    ∃ bs, haStrongest cat sols = .ok bs ∧ bs.length = sols.length ∧
      ∀ (i : Nat) (s : Sol), sols[i]? = some s →
        (bs[i]? = some true ↔ ∃ j l a, Seen cat s j l a ∧ l.emission = true ∧ l.name = "Halpha" ∧ 0 < a ∧
          (∀ j' l' a', Seen cat s j' l' a' → l'.emission = true → a' ≤ a ∧ (j' < j → a' < a))) := by
  obtain ⟨bs, hbs⟩ := Res.tab_total (g := fun i : Nat => Res.at_ sols i >>= fun s =>
      Res.foldN (topStep cat s) 0 s.amps.length none >>= fun t => (.ok (isHa t) : Res Bool)) sols.length (by
    intro i hi
    rw [Res.at_of_lt hi, Res.bind_ok]
    obtain ⟨t, ht, _⟩ := top_spec cat sols[i] (hs _ (List.getElem_mem _))
    rw [ht, Res.bind_ok]
    exact ⟨_, rfl⟩)
  refine ⟨bs, hbs, Res.tab_length _ hbs, ?_⟩
  intro i s hi
  obtain ⟨hlt, rfl⟩ := List.getElem?_eq_some_iff.1 hi
  obtain ⟨b, h1, h2⟩ := Res.tab_get _ hbs i hlt
  rw [Res.at_of_lt hlt, Res.bind_ok] at h2
  obtain ⟨t, ht, ht'⟩ := top_spec cat sols[i] (hs _ (List.getElem_mem _))
  rw [ht, Res.bind_ok, Res.ok.injEq] at h2
  subst h2
  rw [h1, Option.some.injEq]
  have hbound : ∀ {j l a}, Seen cat sols[i] j l a → j < sols[i].amps.length := by
    rintro j l a ⟨_, _, _, _, h4⟩
    exact (List.getElem?_eq_some_iff.1 h4).1
  rcases ht' with ⟨rfl, hn⟩ | ⟨j, l, a, rfl, q1, q2, q3, q4, q5⟩
  · constructor
    · intro h; simp [isHa] at h
    · rintro ⟨j, l, a, h, he, _⟩
      rw [hn j l a h] at he
      simp at he
  · unfold isHa
    simp only [Bool.and_eq_true, decide_eq_true_eq]
    constructor
    · rintro ⟨p1, p2⟩
      exact ⟨j, l, a, q2, q3, p2, p1, fun j' l' a' h he => ⟨q4 j' l' a' (hbound h) h he, fun hj => q5 j' l' a' hj h he⟩⟩
    · rintro ⟨j2, l2, a2, h, he, hname, hpos, hall⟩
      have e1 := (hall j l a q2 q3).1
      have e2 := q4 j2 l2 a2 (hbound h) h he
      have ea : a = a2 := le_antisymm e1 e2
      have ej : j = j2 := by
        rcases Nat.lt_trichotomy j j2 with h' | h' | h'
        · have := (hall j l a q2 q3).2 h'; linarith
        · exact h'
        · have := q5 j2 l2 a2 h' h he; linarith
      subst ej ea
      have el : l = l2 := by
        obtain ⟨id, g1, g2, _⟩ := q2
        obtain ⟨id', g1', g2', _⟩ := h
        rw [g1, Option.some.injEq] at g1'
        subst g1'
        rw [g2, Option.some.injEq] at g2'
        exact g2'
      subst el
      exact ⟨hpos, hname⟩


/-! ## The priors -/

/-- The log prior of the presence of a line: 0 when the prior is disabled (factor not positive) or when the line is there, else the log of
the factor. -/
noncomputable def LineTerm (factor : ℝ) (present : Bool) : ℝ :=
  open Classical in if 0 < factor then (if present then 0 else Real.log factor) else 0

theorem combine_ok (p q : List ℝ) (h : p.length = q.length) : Pdfz.combinePrior false [] p q = .ok (List.zipWith (· + ·) p q) := by
  unfold Pdfz.combinePrior
  rw [if_neg (by omega), Res.tab_ok (h := fun k => p.getD k 0 + q.getD k 0)]
  · rw [Res.bind_ok]
    have e : (List.range p.length).map (fun k => p.getD k 0 + q.getD k 0) = List.zipWith (· + ·) p q := by
      apply List.ext_getElem
      · simp; omega
      · intro k h1 h2
        have h3 : k < p.length := by simpa using h1
        have h4 : k < q.length := by omega
        simp [List.getD_eq_getElem?_getD, h3, h4]
    rw [e]
    rfl
  · intro i hi
    rw [Pdfz.at_getD hi, Pdfz.at_getD (show i < q.length by omega)]
    rfl

theorem linePresence_ok (b : List Bool) (pen : ℝ) (h : 0 < pen) :
    Pdfz.linePresencePrior false [] b pen = .ok (b.map (LineTerm pen)) := by
  unfold Pdfz.linePresencePrior
  rw [Pdfz.logR_pos h, Res.bind_ok]
  unfold Pdfz.maybeNormalize
  simp only [Bool.false_eq_true, if_false, Res.ok.injEq]
  apply List.map_congr_left
  intro x _
  unfold LineTerm
  rw [if_pos h]

variable {C : Type}

/-- The flags the priors of model `k` use (`none`: the line model itself, `some k`: ratio catalog `k`): what the line presence tests say of
the stored solutions, or what is stored for the catalog. -/
structure Flags (cat : Cat) (r : LmRes ℝ ℝ Sol C) (k : Option Nat) (strong ha : List Bool) : Prop where
  strong : (k = none ∧ strongLines cat 1 r.lmSol = .ok strong) ∨ ∃ c, k = some c ∧ r.ratStrong[c]? = some strong
  ha : (k = none ∧ haStrongest cat r.lmSol = .ok ha) ∨ ∃ c, k = some c ∧ r.ratHa[c]? = some ha

theorem Flags.presence_eq {cat : Cat} {r : LmRes ℝ ℝ Sol C} {k : Option Nat} {st ha : List Bool} (h : Flags cat r k st ha) :
    presence cat r k = .ok st := by
  rcases h.strong with ⟨rfl, g⟩ | ⟨c, rfl, g⟩
  · exact g
  · exact Res.at_eq_ok.2 g

theorem Flags.presenceHa_eq {cat : Cat} {r : LmRes ℝ ℝ Sol C} {k : Option Nat} {st ha : List Bool} (h : Flags cat r k st ha) :
    presenceHa cat r k = .ok ha := by
  rcases h.ha with ⟨rfl, g⟩ | ⟨c, rfl, g⟩
  · exact g
  · exact Res.at_eq_ok.2 g

theorem flags_exist (cat : Cat) {r : LmRes ℝ ℝ Sol C} (hr : Aligned r.redshifts.length r) (hs : ∀ s ∈ r.lmSol, WF cat s)
    (k : Option Nat) (hk : ∀ c, k = some c → c < r.ratChi2.length) :
    ∃ st ha, Flags cat r k st ha ∧ st.length = r.redshifts.length ∧ ha.length = r.redshifts.length := by
  cases k with
  | none =>
    obtain ⟨st, h1, h2, _⟩ := C107_strong_lines cat 1 r.lmSol hs
    obtain ⟨ha, h3, h4, _⟩ := C107_ha_strongest cat r.lmSol hs
    exact ⟨st, ha, ⟨.inl ⟨rfl, h1⟩, .inl ⟨rfl, h3⟩⟩, by rw [h2, hr.lmSol], by rw [h4, hr.lmSol]⟩
  | some c =>
    have hc := hk c rfl
    have h1 : c < r.ratStrong.length := by rw [hr.ratStrong.1]; exact hc
    have h2 : c < r.ratHa.length := by rw [hr.ratHa.1]; exact hc
    exact ⟨r.ratStrong[c], r.ratHa[c], ⟨.inr ⟨c, rfl, List.getElem?_eq_getElem h1⟩, .inr ⟨c, rfl, List.getElem?_eq_getElem h2⟩⟩,
      hr.ratStrong.2 _ (List.getElem_mem _), hr.ratHa.2 _ (List.getElem_mem _)⟩

/-- **C107, priors.** The log prior has one value per redshift, the sum of three terms: the strong line term, the H-alpha term, and, when
that prior is enabled, the log of the expected number of H-alpha emitters, between `-log 1e12` and 0 and larger where more emitters are
expected. -/
theorem C107_priors (o : Opts) (cat : Cat) (r : LmRes ℝ ℝ Sol C) (k : Option Nat) (st ha : List Bool) (hf : Flags cat r k st ha)
    (hst : st.length = r.redshifts.length) (hha : ha.length = r.redshifts.length)
    (hn : 0 < o.nha → Pdfz.Grid r.redshifts ∧ ∀ z ∈ r.redshifts, Pdfz.nhaPoly z ≠ 0) :
    ∃ p q : List ℝ, zpriors o cat r k = .ok p ∧ p.length = r.redshifts.length ∧ q.length = r.redshifts.length ∧
      (¬ 0 < o.nha → ∀ x ∈ q, x = 0) ∧
      (∀ x ∈ q, -Real.log 1e12 ≤ x ∧ x ≤ 0) ∧
      (∀ i j, i < r.redshifts.length → j < r.redshifts.length →
        Pdfz.nhaValue (r.redshifts.getD i 0) ≤ Pdfz.nhaValue (r.redshifts.getD j 0) → q.getD i 0 ≤ q.getD j 0) ∧
      ∀ i (h1 : i < p.length) (h2 : i < st.length) (h3 : i < ha.length) (h4 : i < q.length),
        p[i] = LineTerm o.strong st[i] + LineTerm o.ha ha[i] + q[i] := by
  have hp1 : prior1 o cat r k = .ok (st.map (LineTerm o.strong)) := by
    unfold prior1
    by_cases h : 0 < o.strong
    · rw [if_pos h, hf.presence_eq, Res.bind_ok, linePresence_ok _ _ h]
    · rw [if_neg h]
      unfold Pdfz.constantPrior Pdfz.maybeNormalize
      simp only [Bool.false_eq_true, if_false, Res.ok.injEq]
      rw [← hst, eq_comm, List.eq_replicate_iff]
      refine ⟨by simp, fun x hx => ?_⟩
      obtain ⟨b, _, rfl⟩ := List.mem_map.1 hx
      unfold LineTerm
      rw [if_neg h]
  have hp2 : prior2 o cat r k (st.map (LineTerm o.strong)) =
      .ok (List.zipWith (· + ·) (st.map (LineTerm o.strong)) (ha.map (LineTerm o.ha))) := by
    unfold prior2
    by_cases h : 0 < o.ha
    · rw [if_pos h, hf.presenceHa_eq, Res.bind_ok, linePresence_ok _ _ h, Res.bind_ok, combine_ok _ _ (by simp; omega)]
    · rw [if_neg h, Res.ok.injEq]
      apply List.ext_getElem
      · simp; omega
      · intro i h1 h2
        simp [LineTerm, h]
  by_cases h : 0 < o.nha
  · obtain ⟨hg, hz⟩ := hn h
    obtain ⟨q, hq1, hq2, hq3, hq4⟩ := Pdfz.C27_nha false r.redshifts r.redshifts o.nha hg rfl h hz
    have hq1' : Pdfz.nhaPrior false [] r.redshifts o.nha = .ok q := hq1
    refine ⟨List.zipWith (· + ·) (List.zipWith (· + ·) (st.map (LineTerm o.strong)) (ha.map (LineTerm o.ha))) q, q, ?_, ?_, hq2,
      fun h' => absurd h h', ?_, hq4, ?_⟩
    · unfold zpriors
      rw [hp1, Res.bind_ok, hp2, Res.bind_ok]
      unfold prior3
      rw [if_pos h, hq1', Res.bind_ok, combine_ok _ _ (by simp; omega)]
    · simp; omega
    · intro x hx
      obtain ⟨i, hi, rfl⟩ := List.getElem_of_mem hx
      have := hq3 i (by omega)
      rwa [List.getD_eq_getElem?_getD, List.getElem?_eq_getElem hi, Option.getD_some] at this
    · intro i h1 h2 h3 h4
      simp
  · refine ⟨List.zipWith (· + ·) (st.map (LineTerm o.strong)) (ha.map (LineTerm o.ha)), List.replicate r.redshifts.length 0, ?_, ?_,
      by simp, fun _ x hx => (List.mem_replicate.1 hx).2, ?_, ?_, ?_⟩
    · unfold zpriors
      rw [hp1, Res.bind_ok, hp2, Res.bind_ok]
      unfold prior3
      rw [if_neg h]
    · simp; omega
    · intro x hx
      rw [(List.mem_replicate.1 hx).2]
      exact ⟨neg_nonpos.2 (Real.log_nonneg (by norm_num)), le_rfl⟩
    · intro i j _ _ _
      simp [List.getD_eq_getElem?_getD, *]
    · intro i h1 h2 h3 h4
      simp

/-- With the two line priors only: a redshift with a strong emission line, whose strongest line is H-alpha when it should be, is never less
probable a priori than another when the factors are at most 1. -/
theorem C107_line_never_penalised (o : Opts) (cat : Cat) (r : LmRes ℝ ℝ Sol C) (k : Option Nat) (st ha : List Bool)
    (hf : Flags cat r k st ha) (hst : st.length = r.redshifts.length) (hha : ha.length = r.redshifts.length) (hn : ¬ 0 < o.nha)
    (h1 : o.strong ≤ 1) (h2 : o.ha ≤ 1) (p : List ℝ) (hp : zpriors o cat r k = .ok p) (i : Nat) (hi : st[i]? = some true)
    (hi' : ha[i]? = some true) : p[i]? = some 0 ∧ ∀ x ∈ p, x ≤ 0 := by
  obtain ⟨p', q, e1, e2, e3, e4, _, _, e5⟩ := C107_priors o cat r k st ha hf hst hha (fun h => absurd h hn)
  rw [hp, Res.ok.injEq] at e1
  subst e1
  have hneg : ∀ f b, f ≤ 1 → LineTerm f b ≤ 0 := by
    intro f b hfl
    unfold LineTerm
    split_ifs with a1 a2
    · exact le_rfl
    · exact Real.log_nonpos a1.le hfl
    · exact le_rfl
  have hzero : ∀ f, LineTerm f true = 0 := by
    intro f; unfold LineTerm; simp
  obtain ⟨hlt, hv⟩ := List.getElem?_eq_some_iff.1 hi
  obtain ⟨hlt', hv'⟩ := List.getElem?_eq_some_iff.1 hi'
  constructor
  · rw [List.getElem?_eq_getElem (by omega), Option.some.injEq, e5 i (by omega) hlt hlt' (by omega), hv, hv', hzero, hzero,
      e4 hn _ (List.getElem_mem _)]
    norm_num
  · intro x hx
    obtain ⟨j, hj, rfl⟩ := List.getElem_of_mem hx
    rw [e5 j hj (by omega) (by omega) (by omega), e4 hn _ (List.getElem_mem _)]
    have a := hneg o.strong (st[j]'(by omega)) h1
    have b := hneg o.ha (ha[j]'(by omega)) h2
    linarith

/-! ### Examples -/

/-- A catalogue with H-alpha (strong), an OII line (strong) and a weak absorption line. -/
def exCat : Cat := fun id =>
  if id = 0 then some ⟨true, true, "Halpha"⟩ else if id = 1 then some ⟨true, true, "[OII]3729"⟩ else if id = 2 then some ⟨false, false, "CaH"⟩
  else none

/-- H-alpha is the strongest, the amplitude of OII is NaN. -/
def exSol : Sol := ⟨[0, 1, 2], [some 3, none, some 5], [false, false, false]⟩

/-- H-alpha outside the wavelength range. -/
def exSol' : Sol := ⟨[0, 1, 2], [some 3, some 0, some 5], [true, false, false]⟩

theorem exWF : ∀ s ∈ [exSol, exSol', ⟨[], [], []⟩], WF exCat s := by
  intro s hs
  simp only [List.mem_cons, List.not_mem_nil, or_false] at hs
  rcases hs with rfl | rfl | rfl
  · refine ⟨rfl, rfl, ?_⟩
    intro id hid
    simp only [exSol, List.mem_cons, List.not_mem_nil, or_false] at hid
    rcases hid with rfl | rfl | rfl <;> exact ⟨_, rfl⟩
  · refine ⟨rfl, rfl, ?_⟩
    intro id hid
    simp only [exSol', List.mem_cons, List.not_mem_nil, or_false] at hid
    rcases hid with rfl | rfl | rfl <;> exact ⟨_, rfl⟩
  · exact ⟨rfl, rfl, by simp⟩

/-- The first redshift has a strong line, the second has none. -/
example : ∃ bs, strongLines exCat 1 [exSol, exSol', ⟨[], [], []⟩] = .ok bs ∧ bs[0]? = some true ∧ bs[1]? ≠ some true ∧ bs[2]? ≠ some true := by
  obtain ⟨bs, h1, _, h2⟩ := C107_strong_lines exCat 1 _ exWF
  refine ⟨bs, h1, ?_, ?_, ?_⟩
  · exact (h2 0 exSol rfl).2 ⟨0, ⟨true, true, "Halpha"⟩, 3, ⟨0, rfl, rfl, rfl, rfl⟩, by norm_num, rfl, by decide, by decide⟩
  · intro h
    obtain ⟨j, l, a, ⟨id, g1, g2, g3, g4⟩, ha, hl, -⟩ := (h2 1 exSol' rfl).1 h
    match j, g1, g3, g4 with
    | 0, g1, g3, g4 => simp [exSol'] at g3
    | 1, g1, g3, g4 => simp [exSol'] at g4; linarith
    | 2, g1, g3, g4 =>
      simp [exSol'] at g1
      subst g1
      simp [exCat] at g2
      subst g2
      simp at hl
    | j + 3, g1, g3, g4 => simp [exSol'] at g1
  · intro h
    obtain ⟨j, l, a, ⟨id, g1, -⟩, -⟩ := (h2 2 _ rfl).1 h
    simp at g1

/-- H-alpha is the strongest emission line of the first solution. -/
example : ∃ bs, haStrongest exCat [exSol, exSol', ⟨[], [], []⟩] = .ok bs ∧ bs[0]? = some true := by
  obtain ⟨bs, h1, _, h2⟩ := C107_ha_strongest exCat _ exWF
  refine ⟨bs, h1, (h2 0 exSol rfl).2 ⟨0, ⟨true, true, "Halpha"⟩, 3, ⟨0, rfl, rfl, rfl, rfl⟩, rfl, rfl, by norm_num, ?_⟩⟩
  rintro j l a ⟨id, g1, g2, g3, g4⟩ he
  match j, g1, g4 with
  | 0, g1, g4 => simp [exSol] at g4; exact ⟨g4.ge, fun h => by omega⟩
  | 1, g1, g4 => simp [exSol] at g4
  | 2, g1, g4 =>
    simp [exSol] at g1
    subst g1
    simp [exCat] at g2
    subst g2
    simp at he
  | j + 3, g1, g4 => simp [exSol] at g1

end ChiArray
end Amazed
