import Verif.Model.InputCtx
import Verif.Props.MeiksinProps

/-! # C173, C174, C175: initialisation of the inputs over several objects -/

set_option linter.unusedSectionVars false
set_option linter.unusedVariables false

namespace Amazed
namespace InputCtx

/-! ## Changes of the catalogue -/

section
variable {S K : Type}

theorem mapTpl_spec {f : Tp K → Tp K} : ∀ {l l' : List (Option (Tp K))}, mapTpl f l = .ok l' → l' = l.map (Option.map f) ∧ none ∉ l
  | [], l', h => by cases h; simp
  | none :: _, l', h => by cases h
  | some t :: l, l', h => by
    unfold mapTpl at h
    obtain ⟨l1, h1, h⟩ := Res.bind_eq_ok.1 h
    cases h
    obtain ⟨e1, e2⟩ := mapTpl_spec h1
    exact ⟨by rw [e1]; simp, by simp [e2]⟩

theorem mapTpl_ok {f : Tp K → Tp K} : ∀ {l : List (Option (Tp K))}, none ∉ l → mapTpl f l = .ok (l.map (Option.map f))
  | [], _ => rfl
  | none :: l, h => by simp at h
  | some t :: l, h => by
    unfold mapTpl
    rw [mapTpl_ok (l := l) (by simp at h; exact h), Res.bind_ok]
    rfl

theorem mapCat_spec {f : String → List (Option (Tp K)) → Res (List (Option (Tp K)))} : ∀ {c c' : Cat K}, mapCat f c = .ok c' →
    List.Forall₂ (fun a b => a.1 = b.1 ∧ f a.1 a.2 = .ok b.2) c c'
  | [], c', h => by cases h; exact .nil
  | (n, l) :: r, c', h => by
    unfold mapCat at h
    obtain ⟨l1, h1, h⟩ := Res.bind_eq_ok.1 h
    obtain ⟨r1, h2, h⟩ := Res.bind_eq_ok.1 h
    cases h
    exact .cons ⟨rfl, h1⟩ (mapCat_spec h2)

theorem mapCat_ok {f : String → List (Option (Tp K)) → Res (List (Option (Tp K)))} : ∀ {c : Cat K}, (∀ a ∈ c, ∃ l, f a.1 a.2 = .ok l) → ∃ c', mapCat f c = .ok c'
  | [], _ => ⟨[], rfl⟩
  | (n, l) :: r, h => by
    obtain ⟨l1, h1⟩ := h (n, l) (by simp)
    obtain ⟨r1, h2⟩ := mapCat_ok (c := r) fun a ha => h a (by simp [ha])
    exact ⟨(n, l1) :: r1, by unfold mapCat; rw [h1, Res.bind_ok, h2, Res.bind_ok]⟩

/-- No template of the catalogue is null. -/
def Full (c : Cat K) : Prop := ∀ a ∈ c, none ∉ a.2

/-- The templates of a category are all with or all without each extinction object. -/
def Uniform (l : List (Option (Tp K))) : Prop := ∀ t t', some t ∈ l → some t' ∈ l → t.ism = t'.ism ∧ t.igm = t'.igm

open Classical in
theorem giveIsm_spec {b : Bool} {l l' : List (Option (Tp K))} (h : giveIsm b l = .ok l') :
    l' = if b = true ∧ (∃ t l1, l = some t :: l1 ∧ t.ism = false) then l.map (Option.map fun t => { t with ism := true }) else l := by
  unfold giveIsm at h
  cases b with
  | false => cases h; simp
  | true =>
    rw [if_pos rfl] at h
    obtain ⟨q, h1, h⟩ := Res.bind_eq_ok.1 h
    cases l with
    | nil => cases h1; cases h; simp
    | cons a l =>
      cases a with
      | none => cases h1
      | some t =>
        cases h1
        cases ht : t.ism with
        | false =>
          rw [ht] at h
          rw [if_pos ⟨rfl, t, l, rfl, ht⟩]
          exact (mapTpl_spec h).1
        | true =>
          rw [ht] at h
          rw [if_neg (by rintro ⟨-, t', l1, e, e'⟩; cases e; rw [ht] at e'; cases e')]
          cases h; rfl

open Classical in
theorem giveIgm_spec {b : Bool} {l l' : List (Option (Tp K))} (h : giveIgm b l = .ok l') :
    l' = if b = true ∧ (∃ t l1, l = some t :: l1 ∧ t.igm = false) then l.map (Option.map fun t => { t with igm := true }) else l := by
  unfold giveIgm at h
  cases b with
  | false => cases h; simp
  | true =>
    rw [if_pos rfl] at h
    obtain ⟨q, h1, h⟩ := Res.bind_eq_ok.1 h
    cases l with
    | nil => cases h1; cases h; simp
    | cons a l =>
      cases a with
      | none => cases h1
      | some t =>
        cases h1
        cases ht : t.igm with
        | false =>
          rw [ht] at h
          rw [if_pos ⟨rfl, t, l, rfl, ht⟩]
          exact (mapTpl_spec h).1
        | true =>
          rw [ht] at h
          rw [if_neg (by rintro ⟨-, t', l1, e, e'⟩; cases e; rw [ht] at e'; cases e')]
          cases h; rfl

theorem giveIsm_ok {b : Bool} {l : List (Option (Tp K))} (h : none ∉ l) : ∃ l', giveIsm b l = .ok l' ∧ none ∉ l' := by
  unfold giveIsm
  cases b with
  | false => exact ⟨l, rfl, h⟩
  | true =>
    rw [if_pos rfl]
    cases l with
    | nil => exact ⟨[], rfl, h⟩
    | cons a l =>
      cases a with
      | none => simp at h
      | some t =>
        unfold noIsm
        rw [Res.bind_ok]
        split
        · refine ⟨_, mapTpl_ok h, ?_⟩
          simp at h ⊢
          exact h
        · exact ⟨_, rfl, h⟩

theorem giveIgm_ok {b : Bool} {l : List (Option (Tp K))} (h : none ∉ l) : ∃ l', giveIgm b l = .ok l' ∧ none ∉ l' := by
  unfold giveIgm
  cases b with
  | false => exact ⟨l, rfl, h⟩
  | true =>
    rw [if_pos rfl]
    cases l with
    | nil => exact ⟨[], rfl, h⟩
    | cons a l =>
      cases a with
      | none => simp at h
      | some t =>
        unfold noIgm
        rw [Res.bind_ok]
        split
        · refine ⟨_, mapTpl_ok h, ?_⟩
          simp at h ⊢
          exact h
        · exact ⟨_, rfl, h⟩

theorem initRemoval_ok (p : Prm K) {c : Cat K} (h : Full c) : ∃ c', initRemoval p c = .ok c' ∧ Full c' := by
  obtain ⟨c', hc⟩ := mapCat_ok (f := fun _ => mapTpl fun t => { t with removal := some p.removal }) (c := c) fun a ha => ⟨_, mapTpl_ok (h a ha)⟩
  refine ⟨c', hc, fun b hb => ?_⟩
  obtain ⟨i, hi, rfl⟩ := List.getElem_of_mem hb
  have hs := mapCat_spec hc
  have hi' : i < c.length := by rw [hs.length_eq]; exact hi
  have a := (List.forall₂_iff_get.1 hs).2 i hi' hi
  obtain ⟨e, hn⟩ := mapTpl_spec a.2
  simp only [List.get_eq_getElem] at e
  rw [e]
  simpa using hn

theorem initRemoval_full {p : Prm K} {c c' : Cat K} (h : initRemoval p c = .ok c') : Full c' := by
  have hs := mapCat_spec h
  intro b hb
  obtain ⟨i, hi, rfl⟩ := List.getElem_of_mem hb
  have hi' : i < c.length := by rw [hs.length_eq]; exact hi
  have a := (List.forall₂_iff_get.1 hs).2 i hi' hi
  obtain ⟨e, hn⟩ := mapTpl_spec a.2
  simp only [List.get_eq_getElem] at e
  rw [e]
  simpa using hn

theorem setExt_ok (p : Prm K) {c : Cat K} (h : Full c) : ∃ c', setExt p c = .ok c' :=
  mapCat_ok fun a ha => by
    obtain ⟨l1, h1, h2⟩ := giveIsm_ok (b := p.ism a.1) (h a ha)
    obtain ⟨l2, h3, -⟩ := giveIgm_ok (b := p.igm a.1) h2
    exact ⟨l2, by rw [h1, Res.bind_ok, h3]⟩

theorem setExt_full {p : Prm K} {c c' : Cat K} (hf : Full c) (h : setExt p c = .ok c') : Full c' := by
  have hs := mapCat_spec h
  intro b hb
  obtain ⟨i, hi, rfl⟩ := List.getElem_of_mem hb
  have hi' : i < c.length := by rw [hs.length_eq]; exact hi
  have a := (List.forall₂_iff_get.1 hs).2 i hi' hi
  obtain ⟨l1, h1, h2⟩ := giveIsm_ok (b := p.ism (c.get ⟨i, hi'⟩).1) (hf _ (List.get_mem c ⟨i, hi'⟩))
  obtain ⟨l2, h3, h4⟩ := giveIgm_ok (b := p.igm (c.get ⟨i, hi'⟩).1) h2
  have a2 := a.2
  rw [h1, Res.bind_ok, h3] at a2
  simp only [List.get_eq_getElem] at a2
  rw [← Res.ok.inj a2]
  exact h4

/-- What a template becomes with the extinctions of its category. -/
def withExt (i g : Bool) (t : Tp K) : Tp K := { t with ism := t.ism || i, igm := t.igm || g }

open Classical in
/-- On the templates of a category all with or all without an object, the objects needed are given to all of them. -/
theorem setExt_list {i g : Bool} {l l' : List (Option (Tp K))} (hu : Uniform l) (hn : none ∉ l)
    (h : (giveIsm i l >>= giveIgm g) = .ok l') : l' = l.map (Option.map (withExt i g)) := by
  obtain ⟨l1, h1, h⟩ := Res.bind_eq_ok.1 h
  have e1 : l1 = l.map (Option.map fun t => { t with ism := t.ism || i }) := by
    rw [giveIsm_spec h1]
    split
    · rename_i hc
      obtain ⟨rfl, t, l2, rfl, ht⟩ := hc
      exact List.map_congr_left fun a ha => by
        cases a with
        | none => rfl
        | some a => simp
    · rename_i hc
      conv_lhs => rw [← List.map_id l]
      exact List.map_congr_left fun a ha => by
        cases a with
        | none => rfl
        | some a =>
          have : (a.ism || i) = a.ism := by
            cases i with
            | false => simp
            | true =>
              cases l with
              | nil => cases ha
              | cons b l2 =>
                cases b with
                | none => simp at hn
                | some b =>
                  have hb : b.ism = true := by
                    by_contra hb
                    exact hc ⟨rfl, b, l2, rfl, by simpa using hb⟩
                  rw [(hu a b ha (by simp)).1, hb]
                  rfl
          simp [this]
  have e2 : l' = l1.map (Option.map fun t => { t with igm := t.igm || g }) := by
    have hu1 : ∀ t t', some t ∈ l1 → some t' ∈ l1 → t.igm = t'.igm := by
      intro t t' ht ht'
      rw [e1] at ht ht'
      obtain ⟨a, ha, ea⟩ := List.mem_map.1 ht
      obtain ⟨b, hb, eb⟩ := List.mem_map.1 ht'
      cases a with
      | none => cases ea
      | some a =>
        cases b with
        | none => cases eb
        | some b =>
          cases ea; cases eb
          exact (hu a b ha hb).2
    have hn1 : none ∉ l1 := by rw [e1]; simpa using hn
    rw [giveIgm_spec h]
    split
    · rename_i hc
      obtain ⟨rfl, t, l2, hl, ht⟩ := hc
      exact List.map_congr_left fun a ha => by
        cases a with
        | none => rfl
        | some a => simp
    · rename_i hc
      conv_lhs => rw [← List.map_id l1]
      exact List.map_congr_left fun a ha => by
        cases a with
        | none => rfl
        | some a =>
          have : (a.igm || g) = a.igm := by
            cases g with
            | false => simp
            | true =>
              cases l1 with
              | nil => cases ha
              | cons b l2 =>
                cases b with
                | none => simp at hn1
                | some b =>
                  have hb : b.igm = true := by
                    by_contra hb
                    exact hc ⟨rfl, b, l2, rfl, by simpa using hb⟩
                  rw [hu1 a b ha (by simp), hb]
                  rfl
          simp [this]
  rw [e2, e1, List.map_map]
  exact List.map_congr_left fun a _ => by cases a <;> rfl

end

/-! ## The loops -/

section
variable {S K : Type}

theorem readRanges_spec {o : Ops S K} {p : Prm K} {b : Bool} : ∀ {l : List S} {r rs : List (Range K)}, readRanges o p b l r = .ok rs →
    ∃ r', rs = r ++ r' ∧ List.Forall₂ (fun s x => p.range (if b then some (o.obs s) else none) = .ok x) l r'
  | [], r, rs, h => by cases h; exact ⟨[], by simp, .nil⟩
  | s :: l, r, rs, h => by
    unfold readRanges at h
    obtain ⟨x, h1, h⟩ := Res.bind_eq_ok.1 h
    obtain ⟨r', e, h2⟩ := readRanges_spec h
    exact ⟨x :: r', by rw [e]; simp, .cons h1 h2⟩

theorem readRanges_ok {o : Ops S K} {p : Prm K} {b : Bool} : ∀ {l : List S} {r r' : List (Range K)},
    List.Forall₂ (fun s x => p.range (if b then some (o.obs s) else none) = .ok x) l r' → readRanges o p b l r = .ok (r ++ r')
  | [], r, _, .nil => by simp [readRanges]
  | s :: l, r, _, .cons (b := x) (l₂ := r') h1 h2 => by
    unfold readRanges
    rw [h1, Res.bind_ok, readRanges_ok h2]
    simp

theorem clampAll_spec {o : Ops S K} : ∀ {l : List (S × Range K)} {cl : List (Range K)}, clampAll o l = .ok cl → List.Forall₂ (fun x c => o.clamp x.1 x.2 = .ok c) l cl
  | [], cl, h => by cases h; exact .nil
  | (s, r) :: l, cl, h => by
    unfold clampAll at h
    obtain ⟨x, h1, h⟩ := Res.bind_eq_ok.1 h
    obtain ⟨xs, h2, h⟩ := Res.bind_eq_ok.1 h
    cases h
    exact .cons h1 (clampAll_spec h2)

theorem clampAll_ok {o : Ops S K} : ∀ {l : List (S × Range K)}, (∀ x ∈ l, ∃ c, o.clamp x.1 x.2 = .ok c) → ∃ cl, clampAll o l = .ok cl
  | [], _ => ⟨[], rfl⟩
  | (s, r) :: l, h => by
    obtain ⟨x, h1⟩ := h (s, r) (by simp)
    obtain ⟨xs, h2⟩ := clampAll_ok (l := l) fun a ha => h a (by simp [ha])
    exact ⟨x :: xs, by unfold clampAll; rw [h1, Res.bind_ok, h2, Res.bind_ok]⟩

variable [Field K] [LinearOrder K] [FloorRing K]

theorem valAll_spec {o : Ops S K} {p : Prm K} : ∀ {l : List (S × Range K)} {g : Option (Meiksin.T K)} {ss : List S}, (valAll o p l g).2 = .ok ss →
    List.Forall₂ (fun x s2 => ∃ s1, o.validate x.1 x.2 p.auto = .ok s1 ∧ o.cont s1 = .ok s2) l ss
  | [], g, ss, h => by cases h; exact .nil
  | (s, r) :: l, g, ss, h => by
    unfold valAll at h
    generalize hv : valOne o p s r g = v at h
    cases v with
    | throw e => cases h
    | ub => cases h
    | ok x =>
      obtain ⟨s2, t⟩ := x
      simp only at h
      obtain ⟨ss', h1, h⟩ := Res.bind_eq_ok.1 h
      cases h
      unfold valOne at hv
      obtain ⟨s1, e1, hv⟩ := Res.bind_eq_ok.1 hv
      obtain ⟨s2', e2, hv⟩ := Res.bind_eq_ok.1 hv
      obtain ⟨t', e3, hv⟩ := Res.bind_eq_ok.1 hv
      cases hv
      exact .cons ⟨s1, e1, e2⟩ (valAll_spec h1)

/-- What a successful `Init` went through. -/
structure Went (o : Ops S K) (p : Prm K) (c c' : Ctx S K) (cat cat1 cat2 : Cat K) : Prop where
  had : c.cat = some cat
  removal : initRemoval p cat = .ok cat1
  read : readRanges o p (decide (1 < c.spectra.length)) c.spectra c.ranges = .ok c'.ranges
  size : c'.ranges.length = c.spectra.length
  clamp : clampAll o (c.spectra.zip c'.ranges) = .ok c'.clamped
  val : (valAll o p (c.spectra.zip c'.ranges) c.igm).2 = .ok c'.spectra
  igm : c'.igm = (valAll o p (c.spectra.zip c'.ranges) c.igm).1
  ext : setExt p cat1 = .ok cat2
  has : c'.cat = some cat2

theorem init_went {o : Ops S K} {p : Prm K} {c : Ctx S K} (h : (init o p c).2 = .ok ()) : ∃ cat cat1 cat2, Went o p c (init o p c).1 cat cat1 cat2 := by
  unfold init at h ⊢
  cases e0 : c.cat with
  | none => rw [e0] at h; cases h
  | some cat =>
    rw [e0] at h
    simp only at h ⊢
    cases e1 : initRemoval p cat with
    | throw e => rw [e1] at h; cases h
    | ub => rw [e1] at h; cases h
    | ok cat1 =>
      rw [e1] at h
      simp only at h ⊢
      cases e2 : readRanges o p (decide (1 < c.spectra.length)) c.spectra c.ranges with
      | throw e => rw [e2] at h; cases h
      | ub => rw [e2] at h; cases h
      | ok rs =>
        rw [e2] at h
        simp only at h ⊢
        by_cases hs : rs.length ≠ c.spectra.length
        · rw [if_pos hs] at h; cases h
        · rw [if_neg hs] at h ⊢
          cases e3 : clampAll o (c.spectra.zip rs) with
          | throw e => rw [e3] at h; cases h
          | ub => rw [e3] at h; cases h
          | ok cl =>
            rw [e3] at h
            simp only at h ⊢
            cases e4 : (valAll o p (c.spectra.zip rs) c.igm).2 with
            | throw e => rw [e4] at h; cases h
            | ub => rw [e4] at h; cases h
            | ok ss =>
              rw [e4] at h
              simp only at h ⊢
              cases e5 : setExt p cat1 with
              | throw e => rw [e5] at h; cases h
              | ub => rw [e5] at h; cases h
              | ok cat2 => exact ⟨cat, cat1, cat2, ⟨e0, e1, e2, not_not.1 hs, e3, e4, rfl, e5, rfl⟩⟩

/-- Specification: what becomes of one spectrum: the range read for it, the clamped range and the spectrum kept. -/
def Own (o : Ops S K) (p : Prm K) (several : Prop) (s : S) (r cl : Range K) (s' : S) : Prop :=
  (several → p.range (some (o.obs s)) = .ok r) ∧ (¬ several → p.range none = .ok r) ∧ o.clamp s r = .ok cl ∧
    ∃ s1, o.validate s r p.auto = .ok s1 ∧ o.cont s1 = .ok s'

/-- **C173** Whatever was processed before with the context, once an object is accepted its inputs are its own: one range, one clamped range and one spectrum
for each of its observations, in their order. The range is `lambdaRange`, or that of the name of the observation when there are several; it is the one
the clamped range is computed with and the spectrum is validated on. -/
theorem C173_own {o : Ops S K} {j : Job S K} {g : Option (Meiksin.T K)} {cat : Cat K} {c : Ctx S K} (h : (initOne o j g cat c).2 = .ok ()) :
    let c' := (initOne o j g cat c).1
    c'.ranges.length = j.spectra.length ∧ c'.clamped.length = j.spectra.length ∧ c'.spectra.length = j.spectra.length ∧
      ∀ (i : Nat) (s : S), j.spectra[i]? = some s → ∃ r cl s', c'.ranges[i]? = some r ∧ c'.clamped[i]? = some cl ∧ c'.spectra[i]? = some s' ∧
        Own o j.prm (2 ≤ j.spectra.length) s r cl s' := by
  obtain ⟨cat0, cat1, cat2, w⟩ := init_went h
  show (init o j.prm _).1.ranges.length = _ ∧ _
  obtain ⟨-, -, w1, w2, w3, w4, -, -, -⟩ := w
  simp only [reset] at w1 w2 w3 w4
  unfold initOne
  simp only [reset]
  generalize (init o j.prm _).1 = c' at *
  obtain ⟨r', e, hr⟩ := readRanges_spec w1
  rw [List.nil_append] at e
  subst e
  have hc := clampAll_spec w3
  have hv := valAll_spec w4
  have hzl : (j.spectra.zip c'.ranges).length = j.spectra.length := by rw [List.length_zip, w2, min_self]
  refine ⟨w2, by rw [← hc.length_eq, hzl], by rw [← hv.length_eq, hzl], ?_⟩
  intro i s hs
  have hi := (List.getElem?_eq_some_iff.1 hs).1
  have hir : i < c'.ranges.length := by omega
  have hiz : i < (j.spectra.zip c'.ranges).length := by omega
  have hic : i < c'.clamped.length := by rw [← hc.length_eq]; omega
  have his : i < c'.spectra.length := by rw [← hv.length_eq]; omega
  refine ⟨c'.ranges[i], c'.clamped[i], c'.spectra[i], by simp, by simp, by simp, ?_⟩
  have hsi : j.spectra[i] = s := (List.getElem?_eq_some_iff.1 hs).2
  have a1 := (List.forall₂_iff_get.1 hr).2 i hi hir
  have a2 := (List.forall₂_iff_get.1 hc).2 i hiz hic
  have a3 := (List.forall₂_iff_get.1 hv).2 i hiz his
  simp only [List.get_eq_getElem, List.getElem_zip, hsi] at a1 a2 a3
  refine ⟨fun hm => ?_, fun hm => ?_, a2, a3⟩
  · rw [decide_eq_true (by omega), if_pos rfl] at a1
    exact a1
  · rw [decide_eq_false (by omega)] at a1
    simpa using a1

/-- Validation and continuum do not rename an observation. -/
def KeepsName (o : Ops S K) : Prop := (∀ s r b s', o.validate s r b = .ok s' → o.obs s' = o.obs s) ∧ ∀ s s', o.cont s = .ok s' → o.obs s' = o.obs s

theorem forall₂_zip_right {α β γ : Type} {P : α → β → Prop} {Q : α → γ → Prop} : ∀ {a : List α} {b : List β} {c : List γ}, a.length = b.length →
    List.Forall₂ (fun x s => Q x.1 s) (a.zip b) c → List.Forall₂ Q a c
  | [], b, c, _, h => by cases h; exact .nil
  | x :: a, [], c, hl, h => by simp at hl
  | x :: a, y :: b, c, hl, h => by
    rw [List.zip_cons_cons] at h
    cases h with
    | cons h1 h2 => exact .cons h1 (forall₂_zip_right (P := P) (by simpa using hl) h2)

/-- **C173** An accepted context initialised again without being reset is read out of bounds, as the ranges are added to those already there. -/
theorem C173_twice {o : Ops S K} (ho : KeepsName o) {j : Job S K} (hne : j.spectra ≠ []) {g : Option (Meiksin.T K)} {cat : Cat K} {c : Ctx S K}
    (h : (initOne o j g cat c).2 = .ok ()) : (init o j.prm (initOne o j g cat c).1).2 = .ub := by
  obtain ⟨cat0, cat1, cat2, w⟩ := init_went h
  change Went o j.prm _ (initOne o j g cat c).1 cat0 cat1 cat2 at w
  obtain ⟨-, w0, w1, w2, w3, w4, -, w5, w6⟩ := w
  simp only [reset] at w1 w2 w3 w4
  generalize (initOne o j g cat c).1 = c' at *
  obtain ⟨r', e, hr⟩ := readRanges_spec w1
  rw [List.nil_append] at e
  have hv := valAll_spec w4
  have hzl : (j.spectra.zip c'.ranges).length = j.spectra.length := by rw [List.length_zip, w2, min_self]
  have hsl : c'.spectra.length = j.spectra.length := by rw [← hv.length_eq, hzl]
  have hn : List.Forall₂ (fun s s' => o.obs s' = o.obs s) j.spectra c'.spectra :=
    forall₂_zip_right (P := fun _ _ => True) w2.symm (hv.imp fun x s2 hx => by
      obtain ⟨s1, a1, a2⟩ := hx
      rw [ho.2 _ _ a2, ho.1 _ _ _ _ a1])
  have hr2 : List.Forall₂ (fun s x => j.prm.range (if decide (1 < c'.spectra.length) then some (o.obs s) else none) = .ok x) c'.spectra r' := by
    rw [hsl]
    refine List.forall₂_iff_get.2 ⟨by rw [← hn.length_eq, hr.length_eq], fun i h1 h2 => ?_⟩
    rw [(List.forall₂_iff_get.1 hn).2 i (by omega) h1]
    exact (List.forall₂_iff_get.1 hr).2 i (by omega) h2
  obtain ⟨d3, hd3, -⟩ := initRemoval_ok j.prm (setExt_full (initRemoval_full w0) w5)
  unfold init
  rw [w6]
  simp only
  rw [hd3]
  simp only
  rw [readRanges_ok hr2]
  simp only
  rw [if_pos]
  have h1 := hr2.length_eq
  have h2 : 0 < j.spectra.length := List.length_pos_iff.2 hne
  rw [List.length_append]
  omega

end

/-! ## The IGM object -/

section
variable {S K : Type} [Field K] [LinearOrder K] [IsStrictOrderedRing K] [FloorRing K]

/-- The IGM object was made from the tables. -/
structure From (raws : List (Meiksin.Curve K)) (zbins : List K) (l0 : K) (N : Nat) (t : Meiksin.T K) : Prop where
  raws : t.raws = raws
  zbins : t.zbins = zbins
  lmin : t.lmin = l0
  size : t.lamSize = N

/-- The curves of `t` are the first ones of `t'`. -/
structure Kept (t t' : Meiksin.T K) : Prop where
  raws : t'.raws = t.raws
  zbins : t'.zbins = t.zbins
  lmin : t'.lmin = t.lmin
  size : t'.lamSize = t.lamSize
  fine : t'.fineSize = t.fineSize
  conv : t'.convolved = true
  len : t'.corr.length = t.corr.length
  pre : ∀ (i : Nat) c, t.corr[i]? = some c → ∃ c' rest, t'.corr[i]? = some c' ∧ c'.fluxcorr = c.fluxcorr ++ rest

theorem Kept.trans {a b c : Meiksin.T K} (h1 : Kept a b) (h2 : Kept b c) : Kept a c :=
  ⟨h2.raws.trans h1.raws, h2.zbins.trans h1.zbins, h2.lmin.trans h1.lmin, h2.size.trans h1.size, h2.fine.trans h1.fine, h2.conv, h2.len.trans h1.len, fun i x hx => by
    obtain ⟨y, r, hy, e⟩ := h1.pre i x hx
    obtain ⟨w, r', hw, e'⟩ := h2.pre i y hy
    exact ⟨w, r ++ r', hw, by rw [e', e, List.append_assoc]⟩⟩

theorem Kept.refl {a : Meiksin.T K} (h : a.convolved = true) : Kept a a :=
  ⟨rfl, rfl, rfl, rfl, rfl, h, rfl, fun i x hx => ⟨x, [], hx, by simp⟩⟩

/-- The corrections of the first curves are those read. -/
theorem Kept.correction {t t' : Meiksin.T K} (h : Kept t t') {n : Nat} (hn : ∀ c ∈ t.corr, n ≤ c.fluxcorr.length) (z : K) {idx : Nat} (hi : idx < n) (lambda : K) :
    Meiksin.correction t' z idx lambda = Meiksin.correction t z idx lambda := by
  unfold Meiksin.correction
  have hzz : Meiksin.redshiftIndex t' z = Meiksin.redshiftIndex t z := by unfold Meiksin.redshiftIndex; rw [h.zbins]
  have hw : Meiksin.waveIndex t' lambda = Meiksin.waveIndex t lambda := by unfold Meiksin.waveIndex; rw [h.fine, h.lmin]
  rw [hzz, hw]
  by_cases h1 : Meiksin.lya < lambda
  · rw [if_pos h1, if_pos h1]
  · rw [if_neg h1, if_neg h1, if_neg (by omega), if_neg (by omega)]
    generalize Meiksin.redshiftIndex t z = ri
    cases ri with
    | throw e => rfl
    | ub => rfl
    | ok zi =>
      simp only [Res.bind_ok]
      by_cases h2 : zi = -1
      · rw [if_pos h2, if_pos h2]
      · rw [if_neg h2, if_neg h2]
        unfold Meiksin.corrAt
        simp only [Meiksin.atZ_nat]
        by_cases h3 : zi < 0
        · unfold Res.atZ; rw [if_pos h3, if_pos h3]
        · unfold Res.atZ
          rw [if_neg h3, if_neg h3]
          by_cases h4 : zi.toNat < t.corr.length
          · obtain ⟨c', rest, k1, k2⟩ := h.pre zi.toNat _ (List.getElem?_eq_getElem h4)
            have hlt : idx < (t.corr[zi.toNat]).fluxcorr.length := lt_of_lt_of_le hi (hn _ (List.getElem_mem h4))
            rw [Res.at_of_lt h4, Res.at_eq_ok.2 k1, Res.bind_ok, Res.bind_ok, k2]
            rw [show Res.at_ (t.corr[zi.toNat].fluxcorr ++ rest) idx = Res.at_ t.corr[zi.toNat].fluxcorr idx by
              unfold Res.at_; rw [List.getElem?_append_left hlt]]
          · rw [show Res.at_ t'.corr zi.toNat = .ub from Res.at_eq_ub.2 (by rw [h.len]; omega), show Res.at_ t.corr zi.toNat = .ub from Res.at_eq_ub.2 (by omega)]

/-- A convolution of an object already convolved. -/
theorem kept_convolve {raws : List (Meiksin.Curve K)} {zbins : List K} {l0 : K} {N n : Nat} (h : Meiksin.Tables raws zbins l0 N n) {lsf : Meiksin.LsfFun K}
    (hl : Meiksin.GoodLsf lsf) (cr : Range K) {t t' : Meiksin.T K} (hf : From raws zbins l0 N t) (hs : t.fineSize = N) (hc : t.corr.length = raws.length)
    (e : Meiksin.convolve t lsf cr = .ok t') : Kept t t' ∧ From raws zbins l0 N t' := by
  obtain ⟨corr, e1, e2, e3⟩ := Meiksin.convolve_spec h hl cr t hf.raws hf.zbins hf.lmin hf.size
  rw [e] at e1
  cases e1
  refine ⟨⟨rfl, rfl, rfl, rfl, hs.symm, rfl, by rw [hc]; exact e2, fun i c hi => ?_⟩, ⟨hf.raws, hf.zbins, hf.lmin, hf.size⟩⟩
  have hil := (List.getElem?_eq_some_iff.1 hi).1
  obtain ⟨-, -, c', new, -, -, g1, -, g3, -, -⟩ := e3 i _ (List.getElem?_eq_getElem (by omega : i < raws.length))
  rw [hi] at g3
  exact ⟨c', new, g1, g3⟩

/-- A property of the IGM object that the convolution for a spectrum keeps is kept by the loop of validation. -/
theorem valAll_inv {o : Ops S K} {p : Prm K} {P : Meiksin.T K → Prop} (hP : ∀ s r t t', P t → convolveFor o p s r (some t) = .ok t' → P t') :
    ∀ {l : List (S × Range K)} {t : Meiksin.T K}, P t → ∃ t', (valAll o p l (some t)).1 = some t' ∧ P t'
  | [], t, h => ⟨t, rfl, h⟩
  | (s, r) :: l, t, h => by
    unfold valAll
    generalize hv : valOne o p s r (some t) = v
    cases v with
    | throw e => exact ⟨t, rfl, h⟩
    | ub => exact ⟨t, rfl, h⟩
    | ok x =>
      obtain ⟨s2, t1⟩ := x
      unfold valOne at hv
      obtain ⟨s1, e1, hv⟩ := Res.bind_eq_ok.1 hv
      obtain ⟨s2', e2, hv⟩ := Res.bind_eq_ok.1 hv
      obtain ⟨t', e3, hv⟩ := Res.bind_eq_ok.1 hv
      cases hv
      exact valAll_inv hP (hP _ _ _ _ h e3)

theorem init_inv {o : Ops S K} {p : Prm K} {P : Meiksin.T K → Prop} (hP : ∀ s r t t', P t → convolveFor o p s r (some t) = .ok t' → P t') {c : Ctx S K}
    {t : Meiksin.T K} (hc : c.igm = some t) (h : P t) : ∃ t', (init o p c).1.igm = some t' ∧ P t' := by
  unfold init
  cases e0 : c.cat with
  | none => exact ⟨t, hc, h⟩
  | some cat =>
    simp only
    cases e1 : initRemoval p cat with
    | throw e => exact ⟨t, hc, h⟩
    | ub => exact ⟨t, hc, h⟩
    | ok cat1 =>
      simp only
      cases e2 : readRanges o p (decide (1 < c.spectra.length)) c.spectra c.ranges with
      | throw e => exact ⟨t, hc, h⟩
      | ub => exact ⟨t, hc, h⟩
      | ok rs =>
        simp only
        by_cases hs : rs.length ≠ c.spectra.length
        · rw [if_pos hs]; exact ⟨t, hc, h⟩
        · rw [if_neg hs]
          cases e3 : clampAll o (c.spectra.zip rs) with
          | throw e => exact ⟨t, hc, h⟩
          | ub => exact ⟨t, hc, h⟩
          | ok cl =>
            simp only
            rw [hc]
            have hv := valAll_inv (o := o) (p := p) hP (l := c.spectra.zip rs) h
            cases e4 : (valAll o p (c.spectra.zip rs) (some t)).2 with
            | throw e => exact hv
            | ub => exact hv
            | ok ss =>
              simp only
              cases e5 : setExt p cat1 with
              | throw e => exact hv
              | ub => exact hv
              | ok cat2 => exact hv

theorem process_inv {o : Ops S K} {P : Meiksin.T K → Prop} (hP : ∀ (p : Prm K) s r t t', P t → convolveFor o p s r (some t) = .ok t' → P t') :
    ∀ {js : List (Job S K)} {t : Meiksin.T K} {d : Cat K} {c : Ctx S K}, c.igm = some t → P t → ∃ t', (process o js (some t) d c).igm = some t' ∧ P t'
  | [], t, d, c, hc, h => ⟨t, hc, h⟩
  | j :: js, t, d, c, hc, h => by
    obtain ⟨t1, h1, h2⟩ := init_inv (o := o) (p := j.prm) (hP j.prm) (c := { reset c with spectra := j.spectra, igm := some t, cat := some d }) rfl h
    unfold process
    change (initOne o j (some t) d c).1.igm = some t1 at h1
    rw [h1]
    exact process_inv hP h1 h2

/-- Specification: all the line spread functions are good. -/
def GoodLsfs (o : Ops S K) : Prop := ∀ s f, o.lsf s = some f → Meiksin.GoodLsf f

theorem convolveFor_some {o : Ops S K} {p : Prm K} {s : S} {r : Range K} {t t' : Meiksin.T K} (h : convolveFor o p s r (some t) = .ok t') :
    (t' = t ∧ t.convolved = true ∧ p.fromData = false) ∨ ((t.convolved = false ∨ p.fromData = true) ∧ ∃ f, o.lsf s = some f ∧ Meiksin.convolve t f r = .ok t') := by
  unfold convolveFor at h
  simp only at h
  by_cases hc : t.convolved = false ∨ p.fromData = true
  · rw [if_pos hc] at h
    cases hf : o.lsf s with
    | none => rw [hf] at h; cases h
    | some f =>
      rw [hf] at h
      exact .inr ⟨hc, f, rfl, h⟩
  · rw [if_neg hc] at h
    cases h
    push Not at hc
    exact .inl ⟨rfl, by simpa using hc.1, by simpa using hc.2⟩

/-- **C174 (partial)** The IGM curves of the first spectrum processed are convolved by its line spread function on its range. What is missing: they are those of all the
later spectra too, whatever the line spread functions of these and even when these functions come with the spectra: for any later list of objects, accepted or
refused, each correction is the one computed for the first spectrum. -/
theorem C174_igm_first_partial {raws : List (Meiksin.Curve K)} {zbins : List K} {l0 : K} {N n : Nat} (h : Meiksin.Tables raws zbins l0 N n) {o : Ops S K} (hl : GoodLsfs o)
    {t0 : Meiksin.T K} (ht0 : Meiksin.make raws zbins = .ok t0) {j : Job S K} (hne : j.spectra ≠ []) {cat : Cat K} {c : Ctx S K}
    (hok : (initOne o j (some t0) cat c).2 = .ok ()) :
    ∃ s r f t1, (initOne o j (some t0) cat c).1.spectra[0]? = some s ∧ (initOne o j (some t0) cat c).1.ranges[0]? = some r ∧ o.lsf s = some f ∧
      Meiksin.convolve t0 f r = .ok t1 ∧
      ∀ js : List (Job S K), ∃ t', (process o (j :: js) (some t0) cat c).igm = some t' ∧
        ∀ z (idx : Nat) lambda, idx < n → Meiksin.correction t' z idx lambda = Meiksin.correction t1 z idx lambda := by
  have hm := Meiksin.make_spec h
  rw [ht0] at hm
  cases hm
  obtain ⟨cat0, cat1, cat2, w⟩ := init_went hok
  change Went o j.prm _ (initOne o j _ cat c).1 cat0 cat1 cat2 at w
  obtain ⟨-, -, -, w2, -, w4, w7, -, -⟩ := w
  simp only at w2 w4 w7
  have hun : ∀ js, process o (j :: js) (some ⟨zbins, raws, [], l0, N, -1, false⟩) cat c =
      process o js (initOne o j (some ⟨zbins, raws, [], l0, N, -1, false⟩) cat c).1.igm (catOf (initOne o j (some ⟨zbins, raws, [], l0, N, -1, false⟩) cat c).1 cat)
        (initOne o j (some ⟨zbins, raws, [], l0, N, -1, false⟩) cat c).1 := fun js => rfl
  generalize (initOne o j (some ⟨zbins, raws, [], l0, N, -1, false⟩) cat c).1 = c' at *
  obtain ⟨s0, ss, hs0⟩ := List.exists_cons_of_ne_nil hne
  obtain ⟨r0, rs, hr0⟩ := List.exists_cons_of_ne_nil (l := c'.ranges) (by intro hc; rw [hc, hs0] at w2; simp at w2)
  rw [hs0, hr0, List.zip_cons_cons] at w4 w7
  unfold valAll at w4 w7
  generalize hv : valOne o j.prm s0 r0 (some ⟨zbins, raws, [], l0, N, -1, false⟩) = v at *
  cases v with
  | throw e => cases w4
  | ub => cases w4
  | ok x =>
    obtain ⟨s2, t1⟩ := x
    simp only at w4 w7
    obtain ⟨ss', w5, w6⟩ := Res.bind_eq_ok.1 w4
    have hcs := Res.ok.inj w6
    unfold valOne at hv
    obtain ⟨s1, e1, hv⟩ := Res.bind_eq_ok.1 hv
    obtain ⟨s2', e2, hv⟩ := Res.bind_eq_ok.1 hv
    obtain ⟨t', e3, hv⟩ := Res.bind_eq_ok.1 hv
    cases hv
    rcases convolveFor_some e3 with ⟨-, hc, -⟩ | ⟨-, f, hf, hcv⟩
    · cases hc
    obtain ⟨corr, d1, d2, d3⟩ := Meiksin.convolve_spec h (hl _ _ hf) r0 ⟨zbins, raws, [], l0, N, -1, false⟩ rfl rfl rfl rfl
    rw [hcv] at d1
    cases d1
    refine ⟨s2, r0, f, _, by rw [← hcs]; rfl, by rw [hr0]; rfl, hf, hcv, fun js => ?_⟩
    set t1 : Meiksin.T K := ⟨zbins, raws, corr, l0, N, N, true⟩ with ht1
    have hkeep : ∀ (p : Prm K) s r t t', Kept t1 t → convolveFor o p s r (some t) = .ok t' → Kept t1 t' := by
      intro p s r t t' hk he
      rcases convolveFor_some he with ⟨rfl, -, -⟩ | ⟨-, f', hf', hcv'⟩
      · exact hk
      · refine hk.trans (kept_convolve h (hl _ _ hf') r ⟨hk.raws, hk.zbins, hk.lmin, hk.size⟩ hk.fine ?_ hcv').1
        rw [hk.len]
        exact d2
    obtain ⟨t2, k1, k2⟩ := valAll_inv (o := o) (p := j.prm) (hkeep j.prm) (l := ss.zip rs) (Kept.refl (a := t1) rfl)
    rw [k1] at w7
    obtain ⟨t3, k3, k4⟩ := process_inv (o := o) hkeep (js := js) (d := catOf c' cat) w7 k2
    refine ⟨t3, ?_, fun z idx lambda hidx => k4.correction ?_ z hidx lambda⟩
    · rw [hun, w7]
      exact k3
    · intro x hx
      obtain ⟨i, hi, rfl⟩ := List.getElem_of_mem hx
      obtain ⟨-, -, c1, new, -, -, g1, -, g3, g4, -⟩ := d3 i _ (List.getElem?_eq_getElem (by rw [← d2]; exact hi : i < raws.length))
      rw [List.getElem?_eq_getElem (show i < corr.length from hi)] at g1
      have := Option.some.inj g1
      rw [show t1.corr[i] = c1 from this, g3]
      simp [g4]

/-- **C174** With a line spread function of the parameters, the curves are convolved once: whatever is processed later, the object is left as it is. -/
theorem C174_once {o : Ops S K} {t : Meiksin.T K} (ht : t.convolved = true) {js : List (Job S K)} (hj : ∀ j ∈ js, j.prm.fromData = false) {cat : Cat K} {c : Ctx S K} (hc : c.igm = some t) :
    (process o js (some t) cat c).igm = some t := by
  induction js generalizing c cat with
  | nil => exact hc
  | cons j js ih =>
    obtain ⟨t1, h1, h2⟩ := init_inv (o := o) (p := j.prm) (P := fun x => x = t) (fun s r a b ha he => by
      subst ha
      rcases convolveFor_some he with ⟨rfl, -, -⟩ | ⟨hx, -⟩
      · rfl
      · rw [ht, hj j (by simp)] at hx
        simp at hx) (c := { reset c with spectra := j.spectra, igm := some t, cat := some cat }) rfl rfl
    subst h2
    unfold process
    change (initOne o j (some t1) cat c).1.igm = some t1 at h1
    rw [h1]
    exact ih (fun j' hj' => hj j' (by simp [hj'])) h1

/-- Each bin of the object has `m` curves. -/
def Count (m : Nat) (t : Meiksin.T K) : Prop := t.corr.length = t.raws.length ∧ ∀ c ∈ t.corr, c.fluxcorr.length = m

theorem valAll_count {raws : List (Meiksin.Curve K)} {zbins : List K} {l0 : K} {N n : Nat} (h : Meiksin.Tables raws zbins l0 N n) {o : Ops S K} (hl : GoodLsfs o) {p : Prm K}
    (hd : p.fromData = true) : ∀ {l : List (S × Range K)} {t : Meiksin.T K} {m : Nat} {ss : List S}, From raws zbins l0 N t → Count m t → (valAll o p l (some t)).2 = .ok ss →
      ∃ t', (valAll o p l (some t)).1 = some t' ∧ From raws zbins l0 N t' ∧ Count (m + n * l.length) t'
  | [], t, m, ss, hf, hc, _ => ⟨t, rfl, hf, by simpa using hc⟩
  | (s, r) :: l, t, m, ss, hf, hc, hok => by
    unfold valAll at hok ⊢
    generalize hv : valOne o p s r (some t) = v at *
    cases v with
    | throw e => cases hok
    | ub => cases hok
    | ok x =>
      obtain ⟨s2, t1⟩ := x
      simp only at hok ⊢
      obtain ⟨ss', h1, -⟩ := Res.bind_eq_ok.1 hok
      unfold valOne at hv
      obtain ⟨s1, e1, hv⟩ := Res.bind_eq_ok.1 hv
      obtain ⟨s2', e2, hv⟩ := Res.bind_eq_ok.1 hv
      obtain ⟨t', e3, hv⟩ := Res.bind_eq_ok.1 hv
      cases hv
      rcases convolveFor_some e3 with ⟨-, -, hx⟩ | ⟨-, f, hf', hcv⟩
      · rw [hd] at hx; cases hx
      obtain ⟨corr, d1, d2, d3⟩ := Meiksin.convolve_spec h (hl _ _ hf') r t hf.raws hf.zbins hf.lmin hf.size
      rw [hcv] at d1
      cases d1
      have hrl : t.raws.length = raws.length := by rw [hf.raws]
      obtain ⟨t2, k1, k2, k3⟩ := valAll_count h hl hd (t := { t with fineSize := N, corr := corr, convolved := true }) (m := m + n) ⟨hf.raws, hf.zbins, hf.lmin, hf.size⟩ ⟨by rw [hrl]; exact d2, fun c hx => by
        obtain ⟨i, hi, rfl⟩ := List.getElem_of_mem hx
        change i < corr.length at hi
        obtain ⟨-, -, c1, new, -, -, g1, -, g3, g4, -⟩ := d3 i _ (List.getElem?_eq_getElem (by omega : i < raws.length))
        have g5 : corr[i] = c1 := by simpa [hi] using g1
        have hi2 : i < t.corr.length := by rw [hc.1]; omega
        show corr[i].fluxcorr.length = _
        rw [g5, g3, List.length_append, g4, List.getElem?_eq_getElem hi2, Option.getD_some, hc.2 _ (List.getElem_mem hi2)]⟩ h1
      refine ⟨t2, k1, k2, ?_⟩
      rw [List.length_cons, Nat.mul_add, Nat.mul_one, Nat.add_comm (n * l.length), ← Nat.add_assoc]
      exact k3

/-- **C174** With line spread functions that come with the spectra, each observation of an accepted object adds its curves to the object and none is removed: an object of `m`
curves by bin has `n` more for each observation. -/
theorem C174_growth {raws : List (Meiksin.Curve K)} {zbins : List K} {l0 : K} {N n : Nat} (h : Meiksin.Tables raws zbins l0 N n) {o : Ops S K} (hl : GoodLsfs o) {j : Job S K}
    (hd : j.prm.fromData = true) {t : Meiksin.T K} (hf : From raws zbins l0 N t) {m : Nat} (hc : Count m t) {cat : Cat K} {c : Ctx S K} (hok : (initOne o j (some t) cat c).2 = .ok ()) :
    ∃ t', (initOne o j (some t) cat c).1.igm = some t' ∧ Count (m + n * j.spectra.length) t' := by
  obtain ⟨cat0, cat1, cat2, w⟩ := init_went hok
  change Went o j.prm _ (initOne o j _ cat c).1 cat0 cat1 cat2 at w
  obtain ⟨-, -, -, w2, -, w4, w7, -, -⟩ := w
  simp only at w2 w4 w7
  obtain ⟨t', k1, -, k3⟩ := valAll_count h hl hd hf hc w4
  refine ⟨t', by rw [w7, k1], ?_⟩
  rwa [List.length_zip, w2, min_self] at k3

/-! ## What is accepted -/

theorem convolveFor_ok {raws : List (Meiksin.Curve K)} {zbins : List K} {l0 : K} {N n : Nat} (h : Meiksin.Tables raws zbins l0 N n) {o : Ops S K} {p : Prm K} {s : S} {r : Range K}
    {f : Meiksin.LsfFun K} (hf : o.lsf s = some f) (hl : Meiksin.GoodLsf f) {t : Meiksin.T K} (ht : From raws zbins l0 N t) :
    ∃ t', convolveFor o p s r (some t) = .ok t' ∧ From raws zbins l0 N t' := by
  unfold convolveFor
  simp only
  split
  · rw [hf]
    obtain ⟨corr, d1, -, -⟩ := Meiksin.convolve_spec h hl r t ht.raws ht.zbins ht.lmin ht.size
    exact ⟨_, d1, ⟨ht.raws, ht.zbins, ht.lmin, ht.size⟩⟩
  · exact ⟨t, rfl, ht⟩

theorem valAll_ok {raws : List (Meiksin.Curve K)} {zbins : List K} {l0 : K} {N n : Nat} (h : Meiksin.Tables raws zbins l0 N n) {o : Ops S K} {p : Prm K} :
    ∀ {l : List (S × Range K)} {t : Meiksin.T K}, From raws zbins l0 N t →
      (∀ x ∈ l, ∃ s1 s2 f, o.validate x.1 x.2 p.auto = .ok s1 ∧ o.cont s1 = .ok s2 ∧ o.lsf s2 = some f ∧ Meiksin.GoodLsf f) → ∃ ss, (valAll o p l (some t)).2 = .ok ss
  | [], t, _, _ => ⟨[], rfl⟩
  | (s, r) :: l, t, ht, hx => by
    obtain ⟨s1, s2, f, a1, a2, a3, a4⟩ := hx (s, r) (by simp)
    obtain ⟨t', b1, b2⟩ := convolveFor_ok h (o := o) (p := p) (r := r) a3 a4 ht
    have hv : valOne o p s r (some t) = .ok (s2, t') := by
      unfold valOne
      rw [a1, Res.bind_ok, a2, Res.bind_ok, b1, Res.bind_ok]
    obtain ⟨ss, hss⟩ := valAll_ok h (l := l) b2 fun x hx' => hx x (by simp [hx'])
    refine ⟨s2 :: ss, ?_⟩
    unfold valAll
    rw [hv]
    simp only
    rw [hss, Res.bind_ok]

/-- **C173** An object is accepted when the range of each of its observations can be read, the observation clamped, validated and its continuum initialised, and has a
line spread function: whatever was processed before. -/
theorem C173_accept {raws : List (Meiksin.Curve K)} {zbins : List K} {l0 : K} {N n : Nat} (h : Meiksin.Tables raws zbins l0 N n) {o : Ops S K} {j : Job S K} {t : Meiksin.T K}
    (ht : From raws zbins l0 N t) {cat : Cat K} (hcat : Full cat)
    (hs : ∀ s ∈ j.spectra, ∃ r cl s1 s2 f, j.prm.range (if 2 ≤ j.spectra.length then some (o.obs s) else none) = .ok r ∧ o.clamp s r = .ok cl ∧ o.validate s r j.prm.auto = .ok s1 ∧
      o.cont s1 = .ok s2 ∧ o.lsf s2 = some f ∧ Meiksin.GoodLsf f) (c : Ctx S K) : (initOne o j (some t) cat c).2 = .ok () := by
  obtain ⟨cat1, c1, c2⟩ := initRemoval_ok j.prm hcat
  obtain ⟨cat2, c3⟩ := setExt_ok j.prm c2
  have hr : ∃ rs, List.Forall₂ (fun s x => j.prm.range (if decide (1 < j.spectra.length) then some (o.obs s) else none) = .ok x ∧ (∃ cl, o.clamp s x = .ok cl) ∧
      ∃ s1 s2 f, o.validate s x j.prm.auto = .ok s1 ∧ o.cont s1 = .ok s2 ∧ o.lsf s2 = some f ∧ Meiksin.GoodLsf f) j.spectra rs := by
    have hgen : ∀ l : List S, (∀ s ∈ l, s ∈ j.spectra) → ∃ rs, List.Forall₂ (fun s x => j.prm.range (if decide (1 < j.spectra.length) then some (o.obs s) else none) = .ok x ∧ (∃ cl, o.clamp s x = .ok cl) ∧
      ∃ s1 s2 f, o.validate s x j.prm.auto = .ok s1 ∧ o.cont s1 = .ok s2 ∧ o.lsf s2 = some f ∧ Meiksin.GoodLsf f) l rs := by
      intro l
      induction l with
      | nil => exact fun _ => ⟨[], .nil⟩
      | cons s l ih =>
        intro hm
        obtain ⟨rs, hrs⟩ := ih fun x hx => hm x (by simp [hx])
        obtain ⟨r, cl, s1, s2, f, a1, a2, a3, a4, a5, a6⟩ := hs s (hm s (by simp))
        refine ⟨r :: rs, .cons ⟨?_, ⟨cl, a2⟩, s1, s2, f, a3, a4, a5, a6⟩ hrs⟩
        by_cases hb : 1 < j.spectra.length
        · rw [if_pos (decide_eq_true hb)]; rw [if_pos (show 2 ≤ _ from hb)] at a1; exact a1
        · rw [if_neg (by simpa using hb)]; rw [if_neg (show ¬ 2 ≤ _ from hb)] at a1; exact a1
    exact hgen _ fun _ hx => hx
  obtain ⟨rs, hrs⟩ := hr
  have hrl := hrs.length_eq
  have hz : ∀ x ∈ j.spectra.zip rs, (∃ cl, o.clamp x.1 x.2 = .ok cl) ∧ ∃ s1 s2 f, o.validate x.1 x.2 j.prm.auto = .ok s1 ∧ o.cont s1 = .ok s2 ∧ o.lsf s2 = some f ∧ Meiksin.GoodLsf f := by
    intro x hx
    obtain ⟨i, hi, rfl⟩ := List.getElem_of_mem hx
    rw [List.length_zip] at hi
    rw [List.getElem_zip]
    exact ((List.forall₂_iff_get.1 hrs).2 i (by omega) (by omega)).2
  obtain ⟨cl, hcl⟩ := clampAll_ok fun x hx => (hz x hx).1
  obtain ⟨ss, hss⟩ := valAll_ok h (o := o) (p := j.prm) ht fun x hx => (hz x hx).2
  unfold initOne init
  simp only [reset]
  rw [c1]
  simp only
  rw [readRanges_ok (hrs.imp fun _ _ hx => hx.1)]
  simp only [List.nil_append]
  rw [if_neg (by rw [hrl]; simp), hcl]
  simp only
  rw [hss]
  simp only
  rw [c3]

/-! ## The extinction objects of the templates -/

theorem mapCat_eq {f : String → List (Option (Tp K)) → Res (List (Option (Tp K)))} {g : String → List (Option (Tp K)) → List (Option (Tp K))} : ∀ {c c' : Cat K},
    (∀ a ∈ c, ∀ l, f a.1 a.2 = .ok l → l = g a.1 a.2) → mapCat f c = .ok c' → c' = c.map fun a => (a.1, g a.1 a.2)
  | [], c', _, h => by cases h; rfl
  | (n, l) :: r, c', hg, h => by
    unfold mapCat at h
    obtain ⟨l1, h1, h⟩ := Res.bind_eq_ok.1 h
    obtain ⟨r1, h2, h⟩ := Res.bind_eq_ok.1 h
    cases h
    rw [hg (n, l) (by simp) l1 h1, mapCat_eq (fun a ha => hg a (by simp [ha])) h2]
    rfl

/-- Specification: the catalogue with a change of each template, that may depend on its category. -/
def change (f : String → Tp K → Tp K) (c : Cat K) : Cat K := c.map fun a => (a.1, a.2.map (Option.map (f a.1)))

/-- Specification: what the run of an object makes of a template: its continuum removal is that of the parameters, and the extinction objects needed are there, with
those there before. -/
def ready (p : Prm K) (n : String) (t : Tp K) : Tp K := ⟨t.ism || p.ism n, t.igm || p.igm n, some p.removal⟩

theorem initRemoval_eq {p : Prm K} {c c' : Cat K} (h : initRemoval p c = .ok c') : c' = change (fun _ t => { t with removal := some p.removal }) c :=
  mapCat_eq (g := fun _ l => l.map (Option.map fun t : Tp K => { t with removal := some p.removal })) (fun a _ l hl => (mapTpl_spec hl).1) h

theorem setExt_eq {p : Prm K} {c c' : Cat K} (hf : Full c) (hu : ∀ a ∈ c, Uniform a.2) (h : setExt p c = .ok c') : c' = change (fun n => withExt (p.ism n) (p.igm n)) c :=
  mapCat_eq (g := fun n l => l.map (Option.map (withExt (p.ism n) (p.igm n)))) (fun a ha l hl => setExt_list (hu a ha) (hf a ha) hl) h

/-- The catalogue after the initialisation: as it was, or with the continuum removal, or ready; ready when the object is accepted. -/
theorem cat_after {o : Ops S K} {p : Prm K} {c : Ctx S K} {d : Cat K} (hc : c.cat = some d) (hf : Full d) (hu : ∀ a ∈ d, Uniform a.2) :
    ∃ d', (init o p c).1.cat = some d' ∧ (d' = d ∨ d' = change (fun _ t => { t with removal := some p.removal }) d ∨ d' = change (ready p) d) ∧
      ((init o p c).2 = .ok () → d' = change (ready p) d) := by
  have hready : ∀ d1 d2, initRemoval p d = .ok d1 → setExt p d1 = .ok d2 → d2 = change (ready p) d := by
    intro d1 d2 h1 h2
    have e1 := initRemoval_eq h1
    have hu1 : ∀ a ∈ d1, Uniform a.2 := by
      intro a ha t t' ht ht'
      rw [e1] at ha
      obtain ⟨b, hb, rfl⟩ := List.mem_map.1 ha
      obtain ⟨x, hx, ex⟩ := List.mem_map.1 ht
      obtain ⟨y, hy, ey⟩ := List.mem_map.1 ht'
      cases x with
      | none => cases ex
      | some x =>
        cases y with
        | none => cases ey
        | some y =>
          cases ex; cases ey
          exact hu b hb x y hx hy
    rw [setExt_eq (initRemoval_full h1) hu1 h2, e1]
    unfold change
    rw [List.map_map]
    refine List.map_congr_left fun a _ => ?_
    simp only [Function.comp, List.map_map]
    refine congrArg _ (List.map_congr_left fun x _ => ?_)
    cases x <;> rfl
  unfold init
  rw [hc]
  simp only
  cases e1 : initRemoval p d with
  | throw e => exact ⟨d, hc, .inl rfl, fun h => by cases h⟩
  | ub => exact ⟨d, hc, .inl rfl, fun h => by cases h⟩
  | ok cat1 =>
    have hc1 := initRemoval_eq e1
    simp only
    cases e2 : readRanges o p (decide (1 < c.spectra.length)) c.spectra c.ranges with
    | throw e => exact ⟨cat1, rfl, .inr (.inl hc1), fun h => by cases h⟩
    | ub => exact ⟨cat1, rfl, .inr (.inl hc1), fun h => by cases h⟩
    | ok rs =>
      simp only
      by_cases hs : rs.length ≠ c.spectra.length
      · rw [if_pos hs]; exact ⟨cat1, rfl, .inr (.inl hc1), fun h => by cases h⟩
      · rw [if_neg hs]
        cases e3 : clampAll o (c.spectra.zip rs) with
        | throw e => exact ⟨cat1, rfl, .inr (.inl hc1), fun h => by cases h⟩
        | ub => exact ⟨cat1, rfl, .inr (.inl hc1), fun h => by cases h⟩
        | ok cl =>
          simp only
          cases e4 : (valAll o p (c.spectra.zip rs) c.igm).2 with
          | throw e => exact ⟨cat1, rfl, .inr (.inl hc1), fun h => by cases h⟩
          | ub => exact ⟨cat1, rfl, .inr (.inl hc1), fun h => by cases h⟩
          | ok ss =>
            simp only
            cases e5 : setExt p cat1 with
            | throw e => exact ⟨cat1, rfl, .inr (.inl hc1), fun h => by cases h⟩
            | ub => exact ⟨cat1, rfl, .inr (.inl hc1), fun h => by cases h⟩
            | ok cat2 => exact ⟨cat2, rfl, .inr (.inr (hready _ _ e1 e5)), fun _ => hready _ _ e1 e5⟩

/-- Specification: the catalogue `d` has the categories and the numbers of templates of `d0`, none null; the templates of a category have the same extinction objects, and
have them only if they were needed by one of the objects `J`. -/
def Grown (J : List (Job S K)) (d0 d : Cat K) : Prop :=
  List.Forall₂ (fun a b => b.1 = a.1 ∧ b.2.length = a.2.length ∧ none ∉ b.2 ∧ Uniform b.2 ∧
    ∀ t, some t ∈ b.2 → (t.ism = true → ∃ j ∈ J, j.prm.ism b.1 = true) ∧ (t.igm = true → ∃ j ∈ J, j.prm.igm b.1 = true)) d0 d

theorem Grown.full {J : List (Job S K)} {d0 d : Cat K} (h : Grown J d0 d) : Full d ∧ ∀ a ∈ d, Uniform a.2 := by
  constructor
  all_goals
    intro b hb
    obtain ⟨i, hi, rfl⟩ := List.getElem_of_mem hb
    have hi' : i < d0.length := by rw [h.length_eq]; exact hi
    have a := (List.forall₂_iff_get.1 h).2 i hi' hi
  · exact a.2.2.1
  · exact a.2.2.2.1

theorem Grown.change {J J' : List (Job S K)} {d0 d : Cat K} (h : Grown J d0 d) (hJ : ∀ j ∈ J, j ∈ J') {f : String → Tp K → Tp K}
    (hf1 : ∀ n t, (f n t).ism = true → t.ism = true ∨ ∃ j ∈ J', j.prm.ism n = true) (hf2 : ∀ n t, (f n t).igm = true → t.igm = true ∨ ∃ j ∈ J', j.prm.igm n = true)
    (hu : ∀ n t t', t.ism = t'.ism → t.igm = t'.igm → (f n t).ism = (f n t').ism ∧ (f n t).igm = (f n t').igm) : Grown J' d0 (InputCtx.change f d) := by
  unfold Grown InputCtx.change
  rw [List.forall₂_map_right_iff]
  refine List.Forall₂.imp ?_ h
  rintro a b ⟨h1, h2, h3, h4, h5⟩
  refine ⟨h1, by simpa using h2, by simpa using h3, ?_, ?_⟩
  · intro t t' ht ht'
    obtain ⟨x, hx, ex⟩ := List.mem_map.1 ht
    obtain ⟨y, hy, ey⟩ := List.mem_map.1 ht'
    cases x with
    | none => cases ex
    | some x =>
      cases y with
      | none => cases ey
      | some y =>
        cases ex; cases ey
        exact hu _ _ _ (h4 x y hx hy).1 (h4 x y hx hy).2
  · intro t ht
    obtain ⟨x, hx, ex⟩ := List.mem_map.1 ht
    cases x with
    | none => cases ex
    | some x =>
      cases ex
      obtain ⟨g1, g2⟩ := h5 x hx
      refine ⟨fun hi => ?_, fun hi => ?_⟩
      · rcases hf1 _ _ hi with hi | hi
        · obtain ⟨j, j1, j2⟩ := g1 hi
          exact ⟨j, hJ j j1, j2⟩
        · exact hi
      · rcases hf2 _ _ hi with hi | hi
        · obtain ⟨j, j1, j2⟩ := g2 hi
          exact ⟨j, hJ j j1, j2⟩
        · exact hi

theorem Grown.mono {J J' : List (Job S K)} {d0 d : Cat K} (h : Grown J d0 d) (hJ : ∀ j ∈ J, j ∈ J') : Grown J' d0 d := by
  refine List.Forall₂.imp ?_ h
  rintro a b ⟨h1, h2, h3, h4, h5⟩
  refine ⟨h1, h2, h3, h4, fun t ht => ⟨fun hi => ?_, fun hi => ?_⟩⟩
  · obtain ⟨j, j1, j2⟩ := (h5 t ht).1 hi
    exact ⟨j, hJ j j1, j2⟩
  · obtain ⟨j, j1, j2⟩ := (h5 t ht).2 hi
    exact ⟨j, hJ j j1, j2⟩

theorem grown_after {o : Ops S K} {j : Job S K} {g : Option (Meiksin.T K)} {J : List (Job S K)} {d0 d : Cat K} {c : Ctx S K} (h : Grown J d0 d) :
    ∃ d', (initOne o j g d c).1.cat = some d' ∧ Grown (J ++ [j]) d0 d' ∧ ((initOne o j g d c).2 = .ok () → d' = change (ready j.prm) d) := by
  obtain ⟨d', h1, h2, h3⟩ := cat_after (o := o) (p := j.prm) (c := { reset c with spectra := j.spectra, igm := g, cat := some d }) rfl h.full.1 h.full.2
  refine ⟨d', h1, ?_, h3⟩
  have hJ : ∀ x ∈ J, x ∈ J ++ [j] := fun x hx => by simp [hx]
  rcases h2 with rfl | rfl | rfl
  · exact h.mono hJ
  · exact h.change hJ (fun n t ht => .inl ht) (fun n t ht => .inl ht) fun n t t' e1 e2 => ⟨e1, e2⟩
  · refine h.change hJ (fun n t ht => ?_) (fun n t ht => ?_) fun n t t' e1 e2 => ⟨by simp [ready, e1], by simp [ready, e2]⟩
    · simp only [ready, Bool.or_eq_true] at ht
      exact ht.imp id fun hx => ⟨j, by simp, hx⟩
    · simp only [ready, Bool.or_eq_true] at ht
      exact ht.imp id fun hx => ⟨j, by simp, hx⟩

theorem process_grown {o : Ops S K} : ∀ {js J : List (Job S K)} {g : Option (Meiksin.T K)} {d0 d : Cat K} {c : Ctx S K}, catOf c d = d → Grown J d0 d →
    Grown (J ++ js) d0 (catOf (process o js g d c) d)
  | [], J, g, d0, d, c, hc, h => by
    unfold process
    rw [hc]
    simpa using h
  | j :: js, J, g, d0, d, c, hc, h => by
    obtain ⟨d', h1, h2, -⟩ := grown_after (o := o) (j := j) (g := g) (c := c) h
    unfold process
    have e : catOf (initOne o j g d c).1 d = d' := by unfold catOf; rw [h1]; rfl
    rw [e]
    have ih := process_grown (o := o) (js := js) (J := J ++ [j]) (g := (initOne o j g d c).1.igm) (d0 := d0) (d := d') (c := (initOne o j g d c).1) (by unfold catOf; rw [h1]; rfl) h2
    rw [List.append_assoc] at ih
    have hsome : ∀ (js : List (Job S K)) (g : Option (Meiksin.T K)) (d : Cat K) (c : Ctx S K), (∃ x, c.cat = some x) → ∃ x, (process o js g d c).cat = some x := by
      intro js
      induction js with
      | nil => exact fun _ _ _ hx => hx
      | cons j js ih =>
        intro g d c hx
        unfold process
        refine ih _ _ _ ?_
        unfold initOne init
        simp only
        repeat' split
        all_goals exact ⟨_, rfl⟩
    obtain ⟨x, hx⟩ := hsome js (initOne o j g d c).1.igm d' (initOne o j g d c).1 ⟨_, h1⟩
    unfold catOf at ih ⊢
    rw [hx] at ih ⊢
    exact ih

/-- **C175** Over any list of objects, accepted or refused, from a catalogue loaded without extinction objects: the categories and the templates stay, the templates of a
category always have the same extinction objects, and have them only if an object needed them. -/
theorem C175_history {o : Ops S K} (js : List (Job S K)) {g : Option (Meiksin.T K)} {d : Cat K} (hf : Full d) (hn : ∀ a ∈ d, ∀ t, some t ∈ a.2 → t.ism = false ∧ t.igm = false)
    {c : Ctx S K} (hc : c.cat = none ∨ c.cat = some d) : Grown js d (catOf (process o js g d c) d) := by
  have h0 : Grown ([] : List (Job S K)) d d := by
    refine List.forall₂_iff_get.2 ⟨rfl, fun i h1 h2 => ⟨rfl, rfl, hf _ (List.get_mem d _), ?_, ?_⟩⟩
    · intro t t' ht ht'
      obtain ⟨a1, a2⟩ := hn _ (List.get_mem d _) t ht
      obtain ⟨b1, b2⟩ := hn _ (List.get_mem d _) t' ht'
      exact ⟨a1.trans b1.symm, a2.trans b2.symm⟩
    · intro t ht
      obtain ⟨a1, a2⟩ := hn _ (List.get_mem d _) t ht
      refine ⟨fun hx => ?_, fun hx => ?_⟩
      · rw [a1] at hx; cases hx
      · rw [a2] at hx; cases hx
  have := process_grown (o := o) (js := js) (g := g) (c := c) (by rcases hc with hc | hc <;> (unfold catOf; rw [hc]; rfl)) h0
  simpa using this

/-- **C175** After such a list of objects, the next one, when accepted, finds each template with the extinction objects it needs and with its own continuum removal. -/
theorem C175_next {o : Ops S K} (js : List (Job S K)) {g : Option (Meiksin.T K)} {d : Cat K} (hf : Full d) (hn : ∀ a ∈ d, ∀ t, some t ∈ a.2 → t.ism = false ∧ t.igm = false)
    {c : Ctx S K} (hc : c.cat = none ∨ c.cat = some d) {j : Job S K} {g' : Option (Meiksin.T K)} (hok : (initOne o j g' (catOf (process o js g d c) d) (process o js g d c)).2 = .ok ()) :
    ∃ d', (initOne o j g' (catOf (process o js g d c) d) (process o js g d c)).1.cat = some d' ∧ Grown (js ++ [j]) d d' ∧
      ∀ a ∈ d', ∀ t, some t ∈ a.2 → (j.prm.ism a.1 = true → t.ism = true) ∧ (j.prm.igm a.1 = true → t.igm = true) ∧ t.removal = some j.prm.removal := by
  obtain ⟨d', h1, h2, h3⟩ := grown_after (o := o) (j := j) (g := g') (c := process o js g d c) (C175_history (o := o) js (g := g) hf hn hc)
  refine ⟨d', h1, h2, ?_⟩
  rw [h3 hok]
  intro a ha t ht
  obtain ⟨b, hb, rfl⟩ := List.mem_map.1 ha
  obtain ⟨x, hx, ex⟩ := List.mem_map.1 ht
  cases x with
  | none => cases ex
  | some x =>
    cases ex
    exact ⟨fun hi => by simp [ready, hi], fun hi => by simp [ready, hi], rfl⟩

/-- **C175, finding.** A template added to a category whose first template already has the extinction object never gets it: only the first template is looked at. -/
theorem C175_added {p : Prm K} {n : String} {t : Tp K} {l l' : List (Option (Tp K))} (ht : t.ism = true) (h : giveIsm (p.ism n) (some t :: l) = .ok l') : l' = some t :: l := by
  rw [giveIsm_spec h, if_neg]
  rintro ⟨-, t', l1, e, e'⟩
  cases e
  rw [ht] at e'
  cases e'

end

/-! ## Examples -/

/-- Observations are a name with the width of their line spread function. -/
def exOps : Ops (String × ℚ) ℚ := ⟨fun s => s.1, fun _ r => .ok ⟨r.b, r.e - 1⟩, fun s r _ => if r.e ≤ r.b then .throw .INTERNAL_ERROR else .ok s, fun s => .ok s, fun s => if 0 < s.2 then some (Meiksin.flatLsf s.2) else none⟩

/-- Parameters with line spread functions of the spectra. -/
def exPrm (ism : Bool) : Prm ℚ := ⟨("median", 75, true), false, fun n => if n = some "bad" then .ok ⟨2, 1⟩ else .ok ⟨1000, 9000⟩, true, fun n => ism && n == "galaxy", fun _ => false⟩

/-- A catalogue of two categories. -/
def exCat : Cat ℚ := [("galaxy", [some ⟨false, false, none⟩, some ⟨false, false, none⟩]), ("star", [some ⟨false, false, none⟩])]

/-- The context at the start. -/
def exCtx (t : Meiksin.T ℚ) : Ctx (String × ℚ) ℚ := ⟨[], [], [], some t, none⟩

/-- The object made from the tables of `Meiksin.demoRaws`. -/
def exT : Meiksin.T ℚ := ⟨[2, 3], Meiksin.demoRaws, [], 800, 4, -1, false⟩

theorem exGood : Meiksin.make Meiksin.demoRaws [2, 3] = .ok exT ∧ GoodLsfs exOps ∧ Full exCat ∧
    (∀ a ∈ exCat, ∀ t, some t ∈ a.2 → t.ism = false ∧ t.igm = false) ∧ KeepsName exOps := by
  refine ⟨by decide +kernel, ?_, ?_, ?_, ?_, ?_⟩
  · intro s f hf
    simp only [exOps] at hf
    split at hf
    · rename_i hs
      cases hf
      exact Meiksin.goodLsf_flat _ hs
    · cases hf
  · intro a ha
    simp only [exCat, List.mem_cons, List.not_mem_nil, or_false] at ha
    rcases ha with rfl | rfl <;> simp
  · intro a ha t ht
    simp only [exCat, List.mem_cons, List.not_mem_nil, or_false] at ha
    rcases ha with rfl | rfl
    · simp only [List.mem_cons, List.not_mem_nil, or_false, Option.some.injEq, or_self] at ht
      subst ht; exact ⟨rfl, rfl⟩
    · simp only [List.mem_cons, List.not_mem_nil, or_false, Option.some.injEq] at ht
      subst ht; exact ⟨rfl, rfl⟩
  · intro s r b s' h
    simp only [exOps] at h
    split at h
    · cases h
    · cases h; rfl
  · intro s s' h
    cases h; rfl

/-- Three objects: one of two observations, one refused, one that needs the dust. -/
def exJobs : List (Job (String × ℚ) ℚ) := [⟨exPrm false, [("a", 1 / 20), ("b", 1)]⟩, ⟨exPrm false, [("a", 1), ("bad", 1)]⟩, ⟨exPrm true, [("a", 1)]⟩]

/-- The ranges, clamped ranges and names of the spectra of a context. -/
def exView (c : Ctx (String × ℚ) ℚ) : List (Range ℚ) × List (Range ℚ) × List String := (c.ranges, c.clamped, c.spectra.map (·.1))

example : (initOne exOps ⟨exPrm false, [("a", 1 / 20), ("b", 1)]⟩ (some exT) exCat (exCtx exT)).2 = .ok () ∧
    exView (initOne exOps ⟨exPrm false, [("a", 1 / 20), ("b", 1)]⟩ (some exT) exCat (exCtx exT)).1 = ([⟨1000, 9000⟩, ⟨1000, 9000⟩], [⟨1000, 8999⟩, ⟨1000, 8999⟩], ["a", "b"]) ∧
    (initOne exOps ⟨exPrm false, [("a", 1), ("bad", 1)]⟩ (some exT) exCat (exCtx exT)).2 = .throw .INTERNAL_ERROR := by decide +kernel

/-- The dust is on the galaxies only, once the third object is processed. -/
example : (process exOps exJobs (some exT) exCat (exCtx exT)).cat = some (change (ready (exPrm true)) exCat) ∧
    (change (ready (exPrm true)) exCat).map (fun a => (a.1, a.2.map (Option.map (·.ism)))) = [("galaxy", [some true, some true]), ("star", [some false])] := by decide +kernel

/-- **C174, counterexample.** A spectrum whose line spread function has width 1, processed after one of width 1/20, both read from the spectra: the correction read is the one
of width 1/20, not the one of the spectrum, and the object holds the curves of both. -/
theorem C174_own_counterexample :
    ((process exOps [⟨exPrm false, [("a", 1 / 20)]⟩, ⟨exPrm false, [("b", 1)]⟩] (some exT) exCat (exCtx exT)).igm.map fun t => (Meiksin.correction t (5 / 2) 0 (80004 / 100), t.corr.map (·.fluxcorr.length))) =
      some (.ok (2 / 3), [2]) ∧
    ((process exOps [⟨exPrm false, [("b", 1)]⟩] (some exT) exCat (exCtx exT)).igm.map fun t => (Meiksin.correction t (5 / 2) 0 (80004 / 100), t.corr.map (·.fluxcorr.length))) =
      some (.ok (3 / 4), [1]) := by decide +kernel

/-- The second template of a category, added later, does not get the dust that the object needs. -/
example : setExt (exPrm true) [("galaxy", [some ⟨true, false, none⟩, some ⟨false, false, none⟩])] = .ok [("galaxy", [some ⟨true, false, none⟩, some ⟨false, false, none⟩])] := by decide +kernel

example : (init exOps (exPrm false) (initOne exOps ⟨exPrm false, [("a", 1)]⟩ (some exT) exCat (exCtx exT)).1).2 = .ub := by decide +kernel

end InputCtx
end Amazed
