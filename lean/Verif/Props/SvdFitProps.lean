import Verif.Model.SvdFit
import Verif.Props.EltListProps
import Verif.Props.AmpProps
import Verif.Props.FitAmpProps
import Verif.Props.TplFitProps

set_option linter.unusedVariables false
set_option linter.unusedSectionVars false

/-! # The joint fit never leaves a negative amplitude (C77) -/

namespace Amazed
namespace SvdFit
open Amp (SameElt)

variable {K G : Type} [Field K] [LinearOrder K] [IsStrictOrderedRing K] [LinearOrder G]

/-- No fitted amplitude of the element is negative (a NaN is not negative). -/
def NonNeg (pe : Amp.Elt K) : Prop := ∀ x, some x ∈ pe.fa → 0 ≤ x

/-- The element at index `j` has no negative amplitude. -/
def PosAt (st : List (Amp.Elt K)) (j : Nat) : Prop := ∀ pe, st[j]? = some pe → NonNeg pe

/-- The nominal amplitudes are not negative. -/
def NomOk (st : List (Amp.Elt K)) : Prop := ∀ pe ∈ st, ∀ x ∈ pe.nominal, 0 ≤ x

/-- Only the amplitudes of the elements of `idx` can differ. -/
def Frame (idx : List Nat) (st st' : List (Amp.Elt K)) : Prop :=
  (∀ j : Nat, j ∉ idx → st'[j]? = st[j]?) ∧ ∀ (j : Nat) pe, st[j]? = some pe → ∃ pe', st'[j]? = some pe' ∧ SameElt pe pe'

theorem Frame.refl (idx : List Nat) (st : List (Amp.Elt K)) : Frame idx st st :=
  ⟨fun _ _ => rfl, fun j pe h => ⟨pe, h, SameElt.refl pe⟩⟩

theorem Frame.trans {idx : List Nat} {a b c : List (Amp.Elt K)} (h1 : Frame idx a b) (h2 : Frame idx b c) : Frame idx a c := by
  refine ⟨fun j hj => (h2.1 j hj).trans (h1.1 j hj), fun j pe h => ?_⟩
  obtain ⟨p1, e1, s1⟩ := h1.2 j pe h
  obtain ⟨p2, e2, s2⟩ := h2.2 j p1 e1
  exact ⟨p2, e2, s1.trans s2⟩

theorem Frame.mono {idx idx' : List Nat} {a b : List (Amp.Elt K)} (h : Frame idx a b) (hs : ∀ j ∈ idx, j ∈ idx') : Frame idx' a b :=
  ⟨fun j hj => h.1 j (fun hc => hj (hs j hc)), h.2⟩

theorem tab_mem {α : Type} {g : Nat → Res α} {n : Nat} {l : List α} (h : Res.tab g n = .ok l) {a : α} (ha : a ∈ l) :
    ∃ i, i < n ∧ g i = .ok a := by
  obtain ⟨i, hi, rfl⟩ := List.getElem_of_mem ha
  rw [Res.tab_length n h] at hi
  obtain ⟨b, h1, h2⟩ := Res.tab_get n h i hi
  rw [List.getElem?_eq_getElem (by rw [Res.tab_length n h]; exact hi)] at h1
  exact ⟨i, hi, by rw [Option.some.inj h1]; exact h2⟩

theorem setAmplitude_spec {pe pe' : Amp.Elt K} {A s : Option K} (h : Amp.setAmplitude pe A s = .ok pe') :
    SameElt pe pe' ∧ ((∀ a, A = some a → 0 ≤ a) → (∀ x ∈ pe.nominal, 0 ≤ x) → NonNeg pe') := by
  unfold Amp.setAmplitude at h
  split at h
  · cases h
    refine ⟨⟨_, _, rfl⟩, fun _ _ x hx => ?_⟩
    have := (List.mem_replicate.1 hx).2
    exact absurd this (by simp)
  · rename_i hA
    obtain ⟨l, h1, h2⟩ := Res.bind_eq_ok.1 h
    cases h2
    refine ⟨⟨_, _, rfl⟩, fun hpos hnom x hx => ?_⟩
    simp only [List.mem_map] at hx
    obtain ⟨p, hp, hpx⟩ := hx
    obtain ⟨i, hi, hg⟩ := tab_mem h1 hp
    obtain ⟨o, h3, h4⟩ := Res.bind_eq_ok.1 hg
    split at h4
    · cases h4; exact absurd hpx (by simp)
    · obtain ⟨n, h5, h6⟩ := Res.bind_eq_ok.1 h4
      have hn := hnom n (List.mem_of_getElem? (Res.at_eq_ok.1 h5))
      cases h6
      cases A with
      | none => exact absurd (Or.inl rfl) hA
      | some a =>
        have ha := hpos a rfl
        simp only [Amp.vMul] at hpx
        rw [Amp.capAbs_eq] at hpx
        cases hpx
        split
        · rename_i hc
          exact le_min (mul_nonneg ha hn) hc.2.le
        · exact mul_nonneg ha hn

theorem sameElt_nominal {a b : Amp.Elt K} (h : SameElt a b) : b.nominal = a.nominal := by
  obtain ⟨f, s, rfl⟩ := h; rfl

theorem frame_nomOk {idx : List Nat} {st st' : List (Amp.Elt K)} (h : Frame idx st st') (hl : st'.length = st.length) (hn : NomOk st) : NomOk st' := by
  intro pe hpe x hx
  obtain ⟨j, hj, rfl⟩ := List.getElem_of_mem hpe
  obtain ⟨pe', e1, e2⟩ := h.2 j st[j] (List.getElem?_eq_getElem (by omega))
  rw [List.getElem?_eq_getElem hj] at e1
  cases e1
  rw [sameElt_nominal e2] at hx
  exact hn _ (List.getElem_mem _) x hx

/-- What an update of one element guarantees. -/
structure Upd (i : Nat) (st st' : List (Amp.Elt K)) : Prop where
  len : st'.length = st.length
  lt : i < st.length
  frame : Frame [i] st st'

theorem set_upd {i : Nat} {st : List (Amp.Elt K)} {pe pe' : Amp.Elt K} (h : st[i]? = some pe) (hs : SameElt pe pe') : Upd i st (st.set i pe') := by
  obtain ⟨hi, _⟩ := List.getElem?_eq_some_iff.1 h
  refine ⟨by simp, hi, fun j hj => ?_, fun j q hq => ?_⟩
  · rw [List.mem_singleton] at hj
    rw [List.getElem?_set_ne (fun h => hj h.symm)]
  · by_cases hj : i = j
    · subst hj
      rw [h] at hq; cases hq
      exact ⟨pe', List.getElem?_set_self hi, hs⟩
    · exact ⟨q, by rw [List.getElem?_set_ne hj]; exact hq, SameElt.refl q⟩

theorem setAmp_spec {i : Nat} {a s : Option K} {st st' : List (Amp.Elt K)} (h : setAmp i a s st = .ok st') (hn : NomOk st) :
    Upd i st st' ∧ ((∀ x, a = some x → 0 ≤ x) → PosAt st' i) := by
  unfold setAmp at h
  obtain ⟨pe, h1, h2⟩ := Res.bind_eq_ok.1 h
  obtain ⟨pe', h3, h4⟩ := Res.bind_eq_ok.1 h2
  cases h4
  obtain ⟨s1, s2⟩ := setAmplitude_spec h3
  have hpe := Res.at_eq_ok.1 h1
  refine ⟨set_upd hpe s1, fun ha q hq => ?_⟩
  rw [List.getElem?_set_self (List.getElem?_eq_some_iff.1 hpe).1] at hq
  cases hq
  exact s2 ha (hn pe (List.mem_of_getElem? hpe))

theorem upd_pos {i j : Nat} {st st' : List (Amp.Elt K)} (h : Upd i st st') (hij : j ≠ i) (hp : PosAt st j) : PosAt st' j := by
  intro pe hpe
  rw [h.frame.1 j (by simpa using hij)] at hpe
  exact hp pe hpe

theorem Upd.nomOk {i : Nat} {st st' : List (Amp.Elt K)} (h : Upd i st st') (hn : NomOk st) : NomOk st' := frame_nomOk h.frame h.len hn

theorem Upd.inFrame {i : Nat} {idx : List Nat} {st st' : List (Amp.Elt K)} (h : Upd i st st') (hi : i ∈ idx) : Frame idx st st' :=
  h.frame.mono (by intro j hj; rw [List.mem_singleton] at hj; rw [hj]; exact hi)

/-! ## The fit of one element -/

theorem crossAll_mtm (em : Bool) (nom : Nat → K) (line : Option Nat) : ∀ (obs : List (FitAmp.Obs K)) (a b : FitAmp.Cross K),
    FitAmp.crossAll em nom line obs a = .ok b → 0 ≤ a.mtm → 0 ≤ b.mtm := by
  intro obs
  induction obs with
  | nil => intro a b h ha; unfold FitAmp.crossAll at h; cases h; exact ha
  | cons o os ih =>
    intro a b h ha
    unfold FitAmp.crossAll at h
    obtain ⟨c, h1, h2⟩ := Res.bind_eq_ok.1 h
    refine ih c b h2 ?_
    unfold FitAmp.cross at h1
    have := TplFit.Res.foldN_inv_ok (P := fun _ (s : FitAmp.Cross K) => 0 ≤ s.mtm) o.elt.n 0 a c ha ?_ h1
    · exact this
    · intro i s s' _ _ hs hstep
      split at hstep
      · cases hstep; exact hs
      · split at hstep
        · cases hstep; exact hs
        · unfold FitAmp.crossSupport at hstep
          split at hstep
          · cases hstep; exact hs
          · split at hstep
            · exact absurd hstep (by simp)
            · refine TplFit.Res.foldN_inv_ok (P := fun _ (s : FitAmp.Cross K) => 0 ≤ s.mtm) _ _ s s' hs ?_ hstep
              intro p t t' _ _ ht hstep'
              unfold FitAmp.crossSample at hstep'
              obtain ⟨_, _, g1⟩ := Res.bind_eq_ok.1 hstep'
              obtain ⟨_, _, g2⟩ := Res.bind_eq_ok.1 g1
              obtain ⟨_, _, g3⟩ := Res.bind_eq_ok.1 g2
              obtain ⟨sg, _, g4⟩ := Res.bind_eq_ok.1 g3
              split at g4
              · exact absurd g4 (by simp)
              · cases g4
                simp only
                have h1 : 0 ≤ 1 / (sg * sg) := by rw [one_div]; exact inv_nonneg.2 (mul_self_nonneg _)
                exact add_nonneg ht (mul_nonneg (mul_self_nonneg _) h1)

theorem fitOne_spec {env : Env K G} {i : Nat} {st st' : List (Amp.Elt K)} (h : fitOne env i st = .ok st') (hn : NomOk st) :
    Upd i st st' ∧ (PosAt st i → PosAt st' i) := by
  unfold fitOne at h
  obtain ⟨pe, h1, h2⟩ := Res.bind_eq_ok.1 h
  obtain ⟨r, h3, h4⟩ := Res.bind_eq_ok.1 h2
  cases h4
  have hpe := Res.at_eq_ok.1 h1
  have key : SameElt pe r.1 ∧ (NonNeg pe → NonNeg r.1) := by
    unfold FitAmp.fitAmplitude at h3
    split at h3
    · cases h3; exact ⟨SameElt.refl pe, id⟩
    · simp only at h3
      obtain ⟨a, g1, g2⟩ := Res.bind_eq_ok.1 h3
      split at g2
      · cases g2
        refine ⟨⟨_, _, rfl⟩, fun _ x hx => ?_⟩
        have := (List.mem_replicate.1 hx).2
        exact absurd this (by simp)
      · obtain ⟨pe2, g3, g4⟩ := Res.bind_eq_ok.1 g2
        cases g4
        obtain ⟨s1, s2⟩ := setAmplitude_spec g3
        refine ⟨SameElt.trans ⟨_, _, rfl⟩ s1, fun _ => s2 ?_ ?_⟩
        · intro x hx
          cases hx
          exact div_nonneg (le_max_left _ _) (crossAll_mtm _ _ _ _ _ _ g1 (le_refl _))
        · exact hn pe (List.mem_of_getElem? hpe)
  refine ⟨set_upd hpe key.1, fun hp q hq => ?_⟩
  rw [List.getElem?_set_self (List.getElem?_eq_some_iff.1 hpe).1] at hq
  cases hq
  exact key.2 (hp pe hpe)

/-! ## The joint fit -/

theorem mapL_get {α β : Type} {f : α → Res β} : ∀ {l : List α} {r : List β}, mapL f l = .ok r → r.length = l.length ∧
    ∀ (k : Nat) a, l[k]? = some a → ∃ b, r[k]? = some b ∧ f a = .ok b := by
  intro l
  induction l with
  | nil => intro r h; unfold mapL at h; cases h; exact ⟨rfl, by simp⟩
  | cons a l ih =>
    intro r h
    unfold mapL at h
    obtain ⟨b, h1, h2⟩ := Res.bind_eq_ok.1 h
    obtain ⟨bs, h3, h4⟩ := Res.bind_eq_ok.1 h2
    cases h4
    obtain ⟨i1, i2⟩ := ih h3
    refine ⟨by simp [i1], fun k c hk => ?_⟩
    cases k with
    | zero => simp at hk; subst hk; exact ⟨b, by simp, h1⟩
    | succ k => simp at hk; obtain ⟨d, e1, e2⟩ := i2 k c hk; exact ⟨d, by simpa using e1, e2⟩

theorem mapL_ok {α β : Type} {f : α → Res β} {g : α → β} : ∀ {l : List α}, (∀ a ∈ l, f a = .ok (g a)) → mapL f l = .ok (l.map g) := by
  intro l
  induction l with
  | nil => intro _; rfl
  | cons a l ih =>
    intro h
    unfold mapL
    rw [h a (by simp), Res.bind_ok, ih (fun b hb => h b (by simp [hb])), Res.bind_ok]
    rfl

/-- Invariant rule of `foldL` for a given result. -/
theorem foldL_ok {α σ : Type} {f : α → σ → Res σ} (P : List α → σ → Prop) : ∀ (l pre : List α) (s s' : σ), P pre s →
    (∀ pre a s s', a ∈ l → P pre s → f a s = .ok s' → P (pre ++ [a]) s') → EltList.foldL f l s = .ok s' → P (pre ++ l) s' := by
  intro l
  induction l with
  | nil => intro pre s s' h _ he; unfold EltList.foldL at he; cases he; simpa using h
  | cons a l ih =>
    intro pre s s' h hs he
    unfold EltList.foldL at he
    obtain ⟨t, h1, h2⟩ := Res.bind_eq_ok.1 he
    have := ih (pre ++ [a]) t s' (hs pre a s t (by simp) h h1) (fun p b s s' hb => hs p b s s' (by simp [hb])) h2
    simpa using this

/-- Setting one non-negative amplitude for a list of elements. -/
theorem setAll_spec {c : K} {s : Option K} (hc : 0 ≤ c) {l : List Nat} {st st' : List (Amp.Elt K)}
    (h : EltList.foldL (fun i st => setAmp i (some c) s st) l st = .ok st') (hn : NomOk st) :
    st'.length = st.length ∧ Frame l st st' ∧ NomOk st' ∧ ∀ j ∈ l, PosAt st' j := by
  have := foldL_ok (fun pre (t : List (Amp.Elt K)) => (∀ j ∈ pre, j ∈ l) → t.length = st.length ∧ Frame pre st t ∧ NomOk t ∧ ∀ j ∈ pre, PosAt t j) l [] st st'
    (fun _ => ⟨rfl, Frame.refl _ _, hn, by simp⟩)
    (by
      intro pre a t t' ha hP hstep hall
      obtain ⟨c1, c2, c3, c4⟩ := hP (fun j hj => hall j (by simp [hj]))
      obtain ⟨u, hp⟩ := setAmp_spec hstep c3
      have hp := hp (by rintro x hx; cases hx; exact hc)
      refine ⟨by rw [u.len, c1], Frame.trans (c2.mono (by intro j hj; simp [hj])) (u.inFrame (by simp)), u.nomOk c3, ?_⟩
      intro j hj
      by_cases hja : j = a
      · rw [hja]; exact hp
      · rcases List.mem_append.1 hj with hj | hj
        · exact upd_pos u hja (c4 j hj)
        · exact absurd (List.mem_singleton.1 hj) hja) h
  rw [List.nil_append] at this
  exact this (fun j hj => hj)

/-- Setting the fitted amplitudes of a list without duplicates. -/
theorem setFitted_spec {norm : K} {sol : (Nat → K) × (Nat → K)} {sq : K → K} : ∀ {l : List Nat} {k : Nat} {st st' : List (Amp.Elt K)},
    setFitted norm sol sq l k st = .ok st' → NomOk st → l.Nodup →
    st'.length = st.length ∧ Frame l st st' ∧ NomOk st' ∧ ∀ (m i : Nat), l[m]? = some i → 0 ≤ sol.1 (k + m) / norm → PosAt st' i := by
  intro l
  induction l with
  | nil => intro k st st' h hn _; unfold setFitted at h; cases h; exact ⟨rfl, Frame.refl _ _, hn, by simp⟩
  | cons i l ih =>
    intro k st st' h hn hd
    unfold setFitted at h
    obtain ⟨t, h1, h2⟩ := Res.bind_eq_ok.1 h
    obtain ⟨u, hp⟩ := setAmp_spec h1 hn
    obtain ⟨hil, hd'⟩ := List.nodup_cons.1 hd
    obtain ⟨i1, i2, i3, i4⟩ := ih h2 (u.nomOk hn) hd'
    refine ⟨by rw [i1, u.len], Frame.trans (u.inFrame (by simp)) (i2.mono (by intro j hj; simp [hj])), i3, ?_⟩
    intro m j hm hpos
    cases m with
    | zero =>
      simp at hm
      subst hm
      have := hp (by rintro x hx; cases hx; simpa using hpos)
      intro pe hpe
      rw [i2.1 i hil] at hpe
      exact this pe hpe
    | succ m =>
      simp at hm
      exact i4 m j hm (by rw [show k + 1 + m = k + (m + 1) by omega]; exact hpos)

theorem toFit_sub {idx sel fit : List Nat} (h : toFit idx sel = .ok fit) (hs : sel.Nodup) (hd : idx.Nodup) :
    fit.Nodup ∧ (∀ j ∈ fit, j ∈ idx) ∧ (sel = [] → fit = idx) ∧ (sel ≠ [] → fit.length = sel.length ∧
      ∀ (k q : Nat), sel[k]? = some q → ∃ i, fit[k]? = some i ∧ idx[q]? = some i) := by
  unfold toFit at h
  split at h
  · rename_i he
    cases h
    exact ⟨hd, fun j hj => hj, fun _ => rfl, fun hc => absurd he hc⟩
  · rename_i he
    obtain ⟨h1, h2⟩ := mapL_get h
    have h3 : ∀ (k q : Nat), sel[k]? = some q → ∃ i, fit[k]? = some i ∧ idx[q]? = some i := by
      intro k q hk
      obtain ⟨i, e1, e2⟩ := h2 k q hk
      exact ⟨i, e1, Res.at_eq_ok.1 e2⟩
    refine ⟨?_, ?_, fun hc => absurd hc he, fun _ => ⟨h1, h3⟩⟩
    · rw [List.nodup_iff_getElem?_ne_getElem?]
      intro a b hab hb heq
      obtain ⟨i, e1, e2⟩ := h3 a sel[a] (List.getElem?_eq_getElem (by omega))
      obtain ⟨i', e1', e2'⟩ := h3 b sel[b] (List.getElem?_eq_getElem (by omega))
      rw [heq, e1'] at e1
      cases e1
      obtain ⟨l1, g1⟩ := List.getElem?_eq_some_iff.1 e2
      obtain ⟨l2, g2⟩ := List.getElem?_eq_some_iff.1 e2'
      have : sel[a] = sel[b] := (List.Nodup.getElem_inj_iff hd).1 (g1.trans g2.symm)
      have := (List.Nodup.getElem_inj_iff hs).1 this
      omega
    · intro j hj
      obtain ⟨k, hk, rfl⟩ := List.getElem_of_mem hj
      obtain ⟨i, e1, e2⟩ := h3 k sel[k] (List.getElem?_eq_getElem (by omega))
      rw [List.getElem?_eq_getElem hk] at e1
      cases e1
      exact List.mem_of_getElem? e2

/-- What the joint fit guarantees, for any solver. -/
theorem linSolve_spec {env : Env K G} {solve : Solver K} {idx sel : List Nat} {st : List (Amp.Elt K)} {o : Out K}
    (h : linSolve env solve idx sel st = .ok o) (hn : NomOk st) (hd : idx.Nodup) (hs : sel.Nodup) :
    o.st.length = st.length ∧ Frame idx st o.st ∧ NomOk o.st ∧
      ∃ fit, toFit idx sel = .ok fit ∧ (∀ j ∈ idx, j ∉ fit → PosAt st j → PosAt o.st j) ∧
        (o.pos = true → ∀ j ∈ fit, PosAt o.st j) ∧
        (o.pos = false → o.amps.length = fit.length ∧ o.errs.length = fit.length ∧
          ∀ (m i : Nat) v, fit[m]? = some i → o.amps[m]? = some v → 0 ≤ v → PosAt o.st i) := by
  unfold linSolve at h
  split at h
  · exact absurd h (by simp)
  obtain ⟨xs, h1, h2⟩ := Res.bind_eq_ok.1 h
  split at h2
  · exact absurd h2 (by simp)
  obtain ⟨fit, h3, h4⟩ := Res.bind_eq_ok.1 h2
  obtain ⟨f1, f2, f3, f4⟩ := toFit_sub h3 hs hd
  split at h4
  · obtain ⟨st', h5, h6⟩ := Res.bind_eq_ok.1 h4
    cases h6
    obtain ⟨c1, c2, c3, c4⟩ := setAll_spec (le_refl 0) h5 hn
    exact ⟨c1, c2, c3, fit, h3, fun j hj _ _ => c4 j hj, fun _ j hj => c4 j (f2 j hj), fun hc => absurd hc (by simp)⟩
  · obtain ⟨st1, h5, h6⟩ := Res.bind_eq_ok.1 h4
    obtain ⟨mx, h7, h8⟩ := Res.bind_eq_ok.1 h6
    simp only at h8
    obtain ⟨rows, h9, h10⟩ := Res.bind_eq_ok.1 h8
    obtain ⟨st2, h11, h12⟩ := Res.bind_eq_ok.1 h10
    cases h12
    obtain ⟨c1, c2, c3, _⟩ := setAll_spec zero_le_one h5 hn
    obtain ⟨d1, d2, d3, d4⟩ := setFitted_spec h11 c3 f1
    have hfr := Frame.trans c2 d2
    refine ⟨by simp only; rw [d1, c1], hfr.mono f2, d3, fit, h3, ?_, ?_, ?_⟩
    · intro j _ hj hp pe hpe
      simp only at hpe
      rw [hfr.1 j hj] at hpe
      exact hp pe hpe
    · intro hpos j hj
      obtain ⟨m, hm, rfl⟩ := List.getElem_of_mem hj
      refine d4 m fit[m] (List.getElem?_eq_getElem hm) ?_
      rw [List.all_eq_true] at hpos
      have := hpos ((solve rows).1 m / (1 / mx)) (List.mem_map.2 ⟨m, List.mem_range.2 hm, rfl⟩)
      rw [Nat.zero_add]
      simpa using this
    · intro _
      refine ⟨by simp, by simp, fun m i v hm hv h0 => d4 m i hm ?_⟩
      simp only [List.getElem?_map] at hv
      rw [List.getElem?_range (by obtain ⟨q, _⟩ := List.getElem?_eq_some_iff.1 hm; exact q)] at hv
      simp only [Option.map_some] at hv
      cases hv
      rw [Nat.zero_add]
      exact h0

/-- The separation of the negative amplitudes. -/
theorem split_spec {idx : List Nat} {o : Out K} (hd : idx.Nodup) : ∀ (n k : Nat) (a r : List Nat × List (Amp.Elt K)), k + n = idx.length →
    split idx o k n a = .ok r → NomOk a.2 → a.1.Nodup → (∀ q ∈ a.1, q < k) →
    r.2.length = a.2.length ∧ Frame idx a.2 r.2 ∧ NomOk r.2 ∧ r.1.Nodup ∧
      (∀ j ∈ idx, PosAt a.2 j → PosAt r.2 j) ∧
      (∀ (m i : Nat), k ≤ m → idx[m]? = some i → (∀ v, o.amps[m]? = some v → 0 ≤ v → PosAt a.2 i) → PosAt r.2 i) := by
  intro n
  induction n with
  | zero =>
    intro k a r hk h hn hnd _
    unfold split at h
    cases h
    refine ⟨rfl, Frame.refl _ _, hn, hnd, fun _ _ h => h, ?_⟩
    intro m i hm hi
    obtain ⟨q, _⟩ := List.getElem?_eq_some_iff.1 hi
    omega
  | succ n ih =>
    intro k a r hk h hn hnd hlt
    unfold split at h
    obtain ⟨v, h1, h2⟩ := Res.bind_eq_ok.1 h
    obtain ⟨i, h3, h4⟩ := Res.bind_eq_ok.1 h2
    have hv := Res.at_eq_ok.1 h1
    have hi := Res.at_eq_ok.1 h3
    have hmem : i ∈ idx := List.mem_of_getElem? hi
    split at h4
    · rename_i hneg
      obtain ⟨s, h5, h6⟩ := Res.bind_eq_ok.1 h4
      obtain ⟨st, h7, h8⟩ := Res.bind_eq_ok.1 h6
      obtain ⟨u, hp⟩ := setAmp_spec h7 hn
      have hp := hp (by rintro x hx; cases hx; exact le_refl _)
      obtain ⟨c1, c2, c3, c4, c5, c6⟩ := ih (k + 1) (a.1, st) r (by omega) h8 (u.nomOk hn) hnd (fun q hq => by have := hlt q hq; omega)
      have keep : ∀ j ∈ idx, PosAt a.2 j → PosAt st j := by
        intro j hj hpj
        by_cases hji : j = i
        · rw [hji]; exact hp
        · exact upd_pos u hji hpj
      refine ⟨by rw [c1]; exact u.len, Frame.trans (u.inFrame hmem) c2, c3, c4, fun j hj hpj => c5 j hj (keep j hj hpj), ?_⟩
      intro m j hm hj hpos
      by_cases hmk : m = k
      · subst hmk
        rw [hi] at hj; cases hj
        exact c5 i hmem hp
      · refine c6 m j (by omega) hj (fun w hw h0 => keep j (List.mem_of_getElem? hj) (hpos w hw h0))
    · rename_i hnneg
      obtain ⟨c1, c2, c3, c4, c5, c6⟩ := ih (k + 1) (a.1 ++ [k], a.2) r (by omega) h4 hn
        (by
          rw [List.nodup_append]
          refine ⟨hnd, by simp, ?_⟩
          intro x hx y hy
          rw [List.mem_singleton] at hy
          have := hlt x hx
          omega)
        (by
          intro q hq
          rcases List.mem_append.1 hq with hq | hq
          · have := hlt q hq; omega
          · rw [List.mem_singleton] at hq; omega)
      refine ⟨c1, c2, c3, c4, c5, ?_⟩
      intro m j hm hj hpos
      by_cases hmk : m = k
      · subst hmk
        rw [hi] at hj; cases hj
        exact c5 i hmem (hpos v hv (not_lt.1 hnneg))
      · exact c6 m j (by omega) hj hpos

theorem refit_spec {env : Env K G} {idx pos : List Nat} {o : Out K} (hidx : idx.Nodup) (hpos : pos.Nodup) : ∀ (n k : Nat) (st st' : List (Amp.Elt K)),
    k + n = pos.length → refit env idx pos o k n st = .ok st' → NomOk st →
    st'.length = st.length ∧ Frame idx st st' ∧
      (∀ j ∈ idx, PosAt st j → PosAt st' j) ∧
      (∀ (m q i : Nat), k ≤ m → pos[m]? = some q → idx[q]? = some i → (∀ v, o.amps[m]? = some v → 0 ≤ v → PosAt st i) → PosAt st' i) := by
  intro n
  induction n with
  | zero =>
    intro k st st' hk h hn
    unfold refit at h
    cases h
    refine ⟨rfl, Frame.refl _ _, fun _ _ h => h, ?_⟩
    intro m q i hm hq
    obtain ⟨l, _⟩ := List.getElem?_eq_some_iff.1 hq
    omega
  | succ n ih =>
    intro k st st' hk h hn
    unfold refit at h
    obtain ⟨v, h1, h2⟩ := Res.bind_eq_ok.1 h
    obtain ⟨q, h3, h4⟩ := Res.bind_eq_ok.1 h2
    obtain ⟨i, h5, h6⟩ := Res.bind_eq_ok.1 h4
    obtain ⟨t, h7, h8⟩ := Res.bind_eq_ok.1 h6
    have hv := Res.at_eq_ok.1 h1
    have hq := Res.at_eq_ok.1 h3
    have hi := Res.at_eq_ok.1 h5
    have hmem : i ∈ idx := List.mem_of_getElem? hi
    have key : Upd i st t ∧ (PosAt st i → PosAt t i) ∧ (v ≤ 0 → PosAt t i) := by
      split at h7
      · rename_i hgt
        obtain ⟨u, hp⟩ := fitOne_spec h7 hn
        exact ⟨u, hp, fun hle => absurd hgt (not_lt.2 hle)⟩
      · obtain ⟨s, h9, h10⟩ := Res.bind_eq_ok.1 h7
        obtain ⟨u, hp⟩ := setAmp_spec h10 hn
        have hp := hp (by rintro x hx; cases hx; exact le_refl _)
        exact ⟨u, fun _ => hp, fun _ => hp⟩
    obtain ⟨u, hp, hz⟩ := key
    obtain ⟨c1, c2, c3, c4⟩ := ih (k + 1) t st' (by omega) h8 (u.nomOk hn)
    have keep : ∀ j ∈ idx, PosAt st j → PosAt t j := by
      intro j hj hpj
      by_cases hji : j = i
      · subst hji; exact hp hpj
      · exact upd_pos u hji hpj
    refine ⟨by rw [c1, u.len], Frame.trans (u.inFrame hmem) c2, fun j hj hpj => c3 j hj (keep j hj hpj), ?_⟩
    intro m q' j hm hq' hj hpos'
    by_cases hmk : m = k
    · subst hmk
      rw [hq] at hq'; cases hq'
      rw [hi] at hj; cases hj
      refine c3 i hmem ?_
      by_cases hv0 : v ≤ 0
      · exact hz hv0
      · exact hp (hpos' v hv (le_of_lt (not_le.1 hv0)))
    · exact c4 m q' j (by omega) hq' hj (fun w hw h0 => keep j (List.mem_of_getElem? hj) (hpos' w hw h0))

/-- **C77** Whatever the linear solver returns, the positive joint fit of a list of elements leaves no negative amplitude in
these elements, and changes nothing but their amplitudes. -/
theorem C77_positive (env : Env K G) (solve : Solver K) (idx : List Nat) (hd : idx.Nodup) (st st' : List (Amp.Elt K)) (hn : NomOk st)
    (h : linSolvePositive env solve idx st = .ok st') :
    st'.length = st.length ∧ (∀ j : Nat, j ∉ idx → st'[j]? = st[j]?) ∧
      (∀ (j : Nat) pe, st[j]? = some pe → ∃ pe', st'[j]? = some pe' ∧ SameElt pe pe' ∧ (j ∈ idx → ∀ x, some x ∈ pe'.fa → 0 ≤ x)) := by
  -- enough: length, frame and positivity
  suffices hs : st'.length = st.length ∧ Frame idx st st' ∧ ∀ j ∈ idx, PosAt st' j by
    obtain ⟨a, b, c⟩ := hs
    refine ⟨a, b.1, fun j pe hpe => ?_⟩
    obtain ⟨pe', e1, e2⟩ := b.2 j pe hpe
    exact ⟨pe', e1, e2, fun hj => c j hj pe' e1⟩
  unfold linSolvePositive at h
  obtain ⟨o, h1, h2⟩ := Res.bind_eq_ok.1 h
  obtain ⟨a1, a2, a3, fit, a4, a5, a6, a7⟩ := linSolve_spec h1 hn hd List.nodup_nil
  have hfit : fit = idx := (toFit_sub a4 List.nodup_nil hd).2.2.1 rfl
  subst hfit
  split at h2
  · rename_i hp
    cases h2
    exact ⟨a1, a2, a6 hp⟩
  · rename_i hp
    have hp : o.pos = false := by simpa using hp
    obtain ⟨b1, b2, b3⟩ := a7 hp
    obtain ⟨r, h3, h4⟩ := Res.bind_eq_ok.1 h2
    obtain ⟨c1, c2, c3, c4, c5, c6⟩ := split_spec hd fit.length 0 ([], o.st) r (by omega) h3 a3 (by simp) (by simp)
    have hall : ∀ j ∈ fit, PosAt r.2 j := by
      intro j hj
      obtain ⟨m, hm, rfl⟩ := List.getElem_of_mem hj
      exact c6 m fit[m] (by omega) (List.getElem?_eq_getElem hm) (fun v hv h0 => b3 m fit[m] v (List.getElem?_eq_getElem hm) hv h0)
    have hfr := Frame.trans a2 c2
    have hlen : r.2.length = st.length := by rw [c1]; exact a1
    split at h4
    · obtain ⟨k, h5, h6⟩ := Res.bind_eq_ok.1 h4
      obtain ⟨i, h7, h8⟩ := Res.bind_eq_ok.1 h6
      obtain ⟨u, hu⟩ := fitOne_spec h8 c3
      have hi : i ∈ fit := List.mem_of_getElem? (Res.at_eq_ok.1 h7)
      refine ⟨by rw [u.len, hlen], Frame.trans hfr (u.inFrame hi), fun j hj => ?_⟩
      by_cases hji : j = i
      · subst hji; exact hu (hall j hj)
      · exact upd_pos u hji (hall j hj)
    · split at h4
      · rename_i hgt
        obtain ⟨o2, h5, h6⟩ := Res.bind_eq_ok.1 h4
        obtain ⟨d1, d2, d3, fit2, d4, d5, d6, d7⟩ := linSolve_spec h5 c3 hd c4
        have hne : r.1 ≠ [] := by intro hc; rw [hc] at hgt; simp at hgt
        obtain ⟨e1, e2, _, e4⟩ := toFit_sub d4 c4 hd
        obtain ⟨e5, e6⟩ := e4 hne
        split at h6
        · rename_i hp2
          cases h6
          refine ⟨by rw [d1, hlen], Frame.trans hfr d2, fun j hj => ?_⟩
          by_cases hjf : j ∈ fit2
          · exact d6 hp2 j hjf
          · exact d5 j hj hjf (hall j hj)
        · rename_i hp2
          have hp2 : o2.pos = false := by simpa using hp2
          obtain ⟨g1, g2, g3⟩ := d7 hp2
          obtain ⟨k1, k2, k3, k4⟩ := refit_spec hd c4 r.1.length 0 o2.st st' (by omega) h6 d3
          refine ⟨by rw [k1, d1, hlen], Frame.trans hfr (Frame.trans d2 k2), fun j hj => ?_⟩
          by_cases hjf : j ∈ fit2
          · obtain ⟨m, hm, rfl⟩ := List.getElem_of_mem hjf
            have hmq : r.1[m]? = some (r.1[m]'(by omega)) := List.getElem?_eq_getElem (by omega)
            obtain ⟨i, q1, q2⟩ := e6 m _ hmq
            rw [List.getElem?_eq_getElem hm] at q1
            cases q1
            exact k4 m _ fit2[m] (by omega) hmq q2 (fun v hv h0 => g3 m fit2[m] v (List.getElem?_eq_getElem hm) hv h0)
          · exact k3 j hj (d5 j hj hjf (hall j hj))
      · cases h4
        exact ⟨hlen, hfr, hall⟩

end SvdFit
end Amazed
