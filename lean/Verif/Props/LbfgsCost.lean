import Verif.Props.LbfgsLayout
import Verif.Props.SvdFitLS
import Verif.Props.PolynomProps

set_option linter.unusedVariables false
set_option linter.unusedSectionVars false

/-! # C148: the cost minimised by the non-linear fit -/

namespace Amazed
namespace Lbfgs

open Amp (LType)

variable {K : Type} [Field K] [LinearOrder K] [IsStrictOrderedRing K]

/-! ## Loops over the elements -/

theorem each_spec {f : Nat → P K → Res (P K)} : ∀ (idx : List Nat) (k : Nat) (st st' : List (P K)), idx.Nodup → each f idx k st = .ok st' →
    st'.length = st.length ∧ (∀ (pos i : Nat), idx[pos]? = some i → ∃ p p', st[i]? = some p ∧ f (k + pos) p = .ok p' ∧ st'[i]? = some p') ∧ ∀ i, i ∉ idx → st'[i]? = st[i]? := by
  intro idx
  induction idx with
  | nil => intro k st st' _ h; unfold each at h; cases h; exact ⟨rfl, by simp, by simp⟩
  | cons i l ih =>
    intro k st st' hd h
    unfold each at h
    obtain ⟨p, hp, h⟩ := Res.bind_eq_ok.1 h
    obtain ⟨p', hp', h⟩ := Res.bind_eq_ok.1 h
    obtain ⟨hi, hd'⟩ := List.nodup_cons.1 hd
    obtain ⟨h1, h2, h3⟩ := ih (k + 1) _ st' hd' h
    have hp1 := Res.at_eq_ok.1 hp
    have hlt : i < st.length := (List.getElem?_eq_some_iff.1 hp1).1
    refine ⟨by rw [h1, List.length_set], ?_, ?_⟩
    · intro pos j hj
      cases pos with
      | zero =>
        simp at hj; subst hj
        exact ⟨p, p', hp1, hp', by rw [h3 i hi, List.getElem?_set_self hlt]⟩
      | succ q =>
        rw [List.getElem?_cons_succ] at hj
        obtain ⟨a, b, e1, e2, e3⟩ := h2 q j hj
        have hne : i ≠ j := by rintro rfl; exact hi (List.mem_of_getElem? hj)
        rw [List.getElem?_set_ne hne] at e1
        exact ⟨a, b, e1, by rw [← e2]; congr 1; omega, e3⟩
    · intro j hj
      rw [List.mem_cons, not_or] at hj
      rw [h3 j hj.2, List.getElem?_set_ne (fun e => hj.1 e.symm)]

theorem prepAll_spec {prep : Nat → K → K → List K → Bool × List Bool} : ∀ (idx : List Nat) (st st' : List (P K)), idx.Nodup → prepAll prep idx st = .ok st' →
    st'.length = st.length ∧ (∀ i ∈ idx, ∃ p, st[i]? = some p ∧ st'[i]? = some (prepOf prep i p)) ∧ ∀ i, i ∉ idx → st'[i]? = st[i]? := by
  intro idx
  induction idx with
  | nil => intro st st' _ h; unfold prepAll at h; cases h; exact ⟨rfl, by simp, by simp⟩
  | cons i l ih =>
    intro st st' hd h
    unfold prepAll at h
    obtain ⟨p, hp, h⟩ := Res.bind_eq_ok.1 h
    obtain ⟨hi, hd'⟩ := List.nodup_cons.1 hd
    obtain ⟨h1, h2, h3⟩ := ih _ st' hd' h
    have hp1 := Res.at_eq_ok.1 hp
    have hlt : i < st.length := (List.getElem?_eq_some_iff.1 hp1).1
    refine ⟨by rw [h1, List.length_set], ?_, ?_⟩
    · intro j hj
      by_cases hij : j = i
      · subst hij
        exact ⟨p, hp1, by rw [h3 j hi, List.getElem?_set_self hlt]⟩
      · obtain ⟨a, e1, e2⟩ := h2 j ((List.mem_cons.1 hj).resolve_left hij)
        rw [List.getElem?_set_ne (fun e => hij e.symm)] at e1
        exact ⟨a, e1, e2⟩
    · intro j hj
      rw [List.mem_cons, not_or] at hj
      rw [h3 j hj.2, List.getElem?_set_ne (fun e => hj.1 e.symm)]

theorem globals_get (st : List (P K)) (i : Nat) : (globals st)[i]? = (st[i]?).map fun p => { p with a := { p.a with gOutside := p.a.outside, gOutsideLine := p.a.outsideLine } } := by
  unfold globals; rw [List.getElem?_map]

/-- The same parameters, except those set by `prepareSupport` and by the fit. -/
structure SameFixed (p p' : P K) : Prop where
  lines : p'.a.lines = p.a.lines
  type : p'.a.type = p.a.type
  isEmission : p'.a.isEmission = p.a.isEmission
  nominal : p'.a.nominal = p.a.nominal
  absLimit : p'.a.absLimit = p.a.absLimit
  cat : p'.cat = p.cat

theorem SameFixed.refl (p : P K) : SameFixed p p := ⟨rfl, rfl, rfl, rfl, rfl, rfl⟩

theorem SameFixed.trans {a b c : P K} (h : SameFixed a b) (g : SameFixed b c) : SameFixed a c :=
  ⟨g.1.trans h.1, g.2.trans h.2, g.3.trans h.3, g.4.trans h.4, g.5.trans h.5, g.6.trans h.6⟩

/-- The velocities and the offsets of an element after an evaluation at `x`. -/
structure Moved (c : Cfg K) (l : Lay) (x : List K) (p p' : P K) : Prop where
  velE : c.velFit = true → p.a.isEmission = true → ∃ v, rd x l.velE = .ok v ∧ p'.velE = v * c.maxE
  velA : c.velFit = true → p.a.isEmission = false → ∃ v, rd x l.velA = .ok v ∧ p'.velA = v * c.maxE
  velE' : c.velFit = false ∨ p.a.isEmission = false → p'.velE = p.velE
  velA' : c.velFit = false ∨ p.a.isEmission = true → p'.velA = p.velA
  off : c.offFit = true → ∃ d, rd x l.off = .ok d ∧ p'.off = p.cat.map (shift c (d * normOff c))
  off' : c.offFit = false → p'.off = p.off
  poly : p'.poly = p.poly

/-- An element with given lines out of the range. -/
def withFlags (e : Amp.Elt K) (o : Bool × List Bool) : Amp.Elt K := { e with outside := o.1, outsideLine := o.2, gOutside := o.1, gOutsideLine := o.2 }

/-- What an evaluation does to an element of the group: the amplitude is set with the lines in range at the previous evaluation, then the velocity and the offsets, then the lines in range. -/
theorem unpack_spec {c : Cfg K} {l : Lay} {prep : Nat → K → K → List K → Bool × List Bool} {idx : List Nat} {x : List K} {st st' : List (P K)} (hd : idx.Nodup) (h : unpack c l prep idx x st = .ok st') :
    st'.length = st.length ∧ (∀ (pos i : Nat), idx[pos]? = some i → ∃ p p' a e, st[i]? = some p ∧ st'[i]? = some p' ∧ x[pos]? = some a ∧ Amp.setAmplitude p.a (some a) (some 0) = .ok e ∧
      SameFixed p p' ∧ Moved c l x p p' ∧ p'.a = withFlags e (prep i p'.velE p'.velA p'.off)) := by
  unfold unpack at h
  obtain ⟨s1, h1, h⟩ := Res.bind_eq_ok.1 h
  obtain ⟨s2, h2, h⟩ := Res.bind_eq_ok.1 h
  obtain ⟨s3, h3, h⟩ := Res.bind_eq_ok.1 h
  obtain ⟨s4, h4, h⟩ := Res.bind_eq_ok.1 h
  cases h
  obtain ⟨l1, e1, -⟩ := each_spec _ _ _ _ hd h1
  have E2 : s2.length = s1.length ∧ ∀ (pos i : Nat), idx[pos]? = some i → ∃ p p', s1[i]? = some p ∧ s2[i]? = some p' ∧ (if c.velFit then velOf c l x p else .ok p) = .ok p' := by
    by_cases hv : c.velFit = true
    · rw [if_pos hv] at h2
      obtain ⟨a, b, -⟩ := each_spec _ _ _ _ hd h2
      refine ⟨a, fun pos i hi => ?_⟩
      obtain ⟨p, p', q1, q2, q3⟩ := b pos i hi
      exact ⟨p, p', q1, q3, by rw [if_pos hv]; exact q2⟩
    · rw [if_neg hv] at h2; cases h2
      refine ⟨rfl, fun pos i hi => ?_⟩
      obtain ⟨p, p', q1, q2, q3⟩ := e1 pos i hi
      exact ⟨p', p', q3, q3, by rw [if_neg hv]⟩
  obtain ⟨l2, e2⟩ := E2
  have E3 : s3.length = s2.length ∧ ∀ (pos i : Nat), idx[pos]? = some i → ∃ p p', s2[i]? = some p ∧ s3[i]? = some p' ∧ (if c.offFit then offOf c l x p else .ok p) = .ok p' := by
    by_cases hv : c.offFit = true
    · rw [if_pos hv] at h3
      obtain ⟨a, b, -⟩ := each_spec _ _ _ _ hd h3
      refine ⟨a, fun pos i hi => ?_⟩
      obtain ⟨p, p', q1, q2, q3⟩ := b pos i hi
      exact ⟨p, p', q1, q3, by rw [if_pos hv]; exact q2⟩
    · rw [if_neg hv] at h3; cases h3
      refine ⟨rfl, fun pos i hi => ?_⟩
      obtain ⟨p, p', q1, q2, q3⟩ := e2 pos i hi
      exact ⟨p', p', q2, q2, by rw [if_neg hv]⟩
  obtain ⟨l3, e3⟩ := E3
  obtain ⟨l4, e4, -⟩ := prepAll_spec _ _ _ hd h4
  refine ⟨by unfold globals; rw [List.length_map, l4, l3, l2, l1], ?_⟩
  intro pos i hi
  obtain ⟨p0, p1, q1, q2, q3⟩ := e1 pos i hi
  rw [Nat.zero_add] at q2
  obtain ⟨a, ha, q2⟩ := Res.bind_eq_ok.1 q2
  unfold P.setAmp at q2
  obtain ⟨e, he, q2⟩ := Res.bind_eq_ok.1 q2
  cases q2
  obtain ⟨p1', p2, r1, r2, r3⟩ := e2 pos i hi
  rw [q3] at r1; cases r1
  obtain ⟨p2', p3, t1, t2, t3⟩ := e3 pos i hi
  rw [r2] at t1; cases t1
  obtain ⟨p3', u1, u2⟩ := e4 i (List.mem_of_getElem? hi)
  rw [t2] at u1; cases u1
  obtain ⟨fa, fs, hfa⟩ := (SvdFit.setAmplitude_spec he).1
  have hp2 : p2.a = e ∧ p2.cat = p0.cat ∧ p2.off = p0.off ∧ p2.poly = p0.poly ∧ (c.velFit = true → p0.a.isEmission = true → ∃ v, rd x l.velE = .ok v ∧ p2.velE = v * c.maxE) ∧
      (c.velFit = true → p0.a.isEmission = false → ∃ v, rd x l.velA = .ok v ∧ p2.velA = v * c.maxE) ∧ (c.velFit = false ∨ p0.a.isEmission = false → p2.velE = p0.velE) ∧
      (c.velFit = false ∨ p0.a.isEmission = true → p2.velA = p0.velA) := by
    have hem : e.isEmission = p0.a.isEmission := by rw [hfa]
    by_cases hv : c.velFit = true
    · rw [if_pos hv] at r3
      unfold velOf at r3
      simp only at r3
      rw [hem] at r3
      by_cases hE : p0.a.isEmission = true
      · rw [if_pos hE] at r3
        obtain ⟨v, k1, k2⟩ := Res.bind_eq_ok.1 r3
        cases k2
        exact ⟨rfl, rfl, rfl, rfl, fun _ _ => ⟨v, k1, rfl⟩, fun _ k => (by rw [hE] at k; cases k), fun k => (by rw [hv, hE] at k; simp at k), fun _ => rfl⟩
      · rw [if_neg hE] at r3
        obtain ⟨v, k1, k2⟩ := Res.bind_eq_ok.1 r3
        cases k2
        exact ⟨rfl, rfl, rfl, rfl, fun _ k => absurd k hE, fun _ _ => ⟨v, k1, rfl⟩, fun _ => rfl, fun k => (by rw [hv] at k; simp [hE] at k)⟩
    · rw [if_neg hv] at r3; cases r3
      exact ⟨rfl, rfl, rfl, rfl, fun k => absurd k hv, fun k => absurd k hv, fun _ => rfl, fun _ => rfl⟩
  obtain ⟨a1, a2, a3, a4, a5, a6, a7, a8⟩ := hp2
  have hp3 : p3.a = e ∧ p3.cat = p0.cat ∧ p3.poly = p0.poly ∧ p3.velE = p2.velE ∧ p3.velA = p2.velA ∧ (c.offFit = true → ∃ d, rd x l.off = .ok d ∧ p3.off = p0.cat.map (shift c (d * normOff c))) ∧
      (c.offFit = false → p3.off = p0.off) := by
    by_cases hv : c.offFit = true
    · rw [if_pos hv] at t3
      unfold offOf at t3
      by_cases hl : c.light = 0
      · rw [if_pos hl] at t3; cases t3
      · rw [if_neg hl] at t3
        obtain ⟨d, k1, k2⟩ := Res.bind_eq_ok.1 t3
        cases k2
        exact ⟨a1, a2, a4, rfl, rfl, fun _ => ⟨d, k1, by simp only [a2]⟩, fun k => (by rw [hv] at k; cases k)⟩
    · rw [if_neg hv] at t3; cases t3
      exact ⟨a1, a2, a4, rfl, rfl, fun k => absurd k hv, fun _ => a3⟩
  obtain ⟨b1, b2, b3, b4, b5, b6, b7⟩ := hp3
  refine ⟨p0, { prepOf prep i p3 with a := { (prepOf prep i p3).a with gOutside := (prepOf prep i p3).a.outside, gOutsideLine := (prepOf prep i p3).a.outsideLine } }, a, e, q1, ?_, Res.at_eq_ok.1 ha, he, ?_, ?_, ?_⟩
  · rw [globals_get, u2]; rfl
  · unfold prepOf
    simp only [b1]
    exact ⟨by rw [hfa], by rw [hfa], by rw [hfa], by rw [hfa], by rw [hfa], b2⟩
  · unfold prepOf
    refine ⟨fun k1 k2 => ?_, fun k1 k2 => ?_, fun k => ?_, fun k => ?_, b6, b7, b3⟩
    · simp only [b4]; exact a5 k1 k2
    · simp only [b5]; exact a6 k1 k2
    · simp only [b4]; exact a7 k
    · simp only [b5]; exact a8 k
  · unfold prepOf withFlags
    simp only [b1]

/-! ## Cost -/

/-- Flux of a line of an element of amplitude `A` (spectrum units) at a sample with continuum `c`, when the line is in the range. -/
def physLine (e : Amp.Elt K) (A : K) (prof : Nat → K) (c : K) (k : Nat) : K :=
  if (e.outsideLine[k]?).getD false then 0 else (if e.isEmission then 1 else -c) * (A * e.nominal.getD k 0) * prof k

/-- Flux of an element of amplitude `A`. -/
def physElt (e : Amp.Elt K) (A : K) (prof : Nat → K) (c : K) : K := if e.outside then 0 else ((List.range e.lines.length).map (physLine e A prof c)).sum

theorem foldl_add (f : Nat → K) : ∀ (l : List Nat) (s : K), l.foldl (fun y k => y + f k) s = s + (l.map f).sum := by
  intro l
  induction l with
  | nil => intro s; simp
  | cons a l ih => intro s; rw [List.foldl_cons, ih, List.map_cons, List.sum_cons, add_assoc]

/-- The model of an element whose amplitude was set to `a` with the lines in range now. -/
theorem modelAt_phys {e0 e e' : Amp.Elt K} {a : K} {s : Option K} (h : Amp.setAmplitude e0 (some a) s = .ok e) (hw : Amp.WF e0)
    (he : e' = { e with outside := e0.gOutside, outsideLine := e0.gOutsideLine, gOutside := e0.gOutside, gOutsideLine := e0.gOutsideLine })
    (ha : 0 ≤ a) (hn : ∀ x ∈ e0.nominal, 0 ≤ x) (hcap : e0.isEmission = true ∨ e0.absLimit ≤ 0 ∨ ∀ x ∈ e0.nominal, a * x ≤ e0.absLimit) (prof : Nat → K) (c : K) :
    modelAt e' prof c = physElt e' a prof c := by
  obtain ⟨fa, fs, hfa⟩ := (SvdFit.setAmplitude_spec h).1
  unfold modelAt physElt
  by_cases ho : e'.outside = true
  · rw [if_pos ho, if_pos ho]
  · rw [if_neg ho, if_neg ho, foldl_add, zero_add]
    have hg : e0.gOutside = false := by rw [he] at ho; simpa using ho
    obtain ⟨e1, k1, -, -, k4⟩ := Amp.C67_set e0 a s hw hg
    rw [h] at k1; cases k1
    congr 1
    apply List.map_congr_left
    intro k hk
    rw [List.mem_range] at hk
    have hlines : e'.lines = e0.lines := by rw [he, hfa]
    rw [hlines] at hk
    have hkn : k < e0.nominal.length := by rw [hw.nominal]; exact hk
    have hkg : k < e0.gOutsideLine.length := by rw [hw.gOutL]; exact hk
    have hnk : e0.nominal[k]? = some e0.nominal[k] := List.getElem?_eq_getElem hkn
    have hok : e0.gOutsideLine[k]? = some e0.gOutsideLine[k] := List.getElem?_eq_getElem hkg
    have hol : e'.outsideLine = e0.gOutsideLine := by rw [he]
    have hnom : e'.nominal = e0.nominal := by rw [he, hfa]
    have hem : e'.isEmission = e0.isEmission := by rw [he, hfa]
    have hfa' : e'.fa = e.fa := by rw [he]
    unfold lineAt physLine
    rw [hol, hok]
    simp only [Option.getD_some]
    cases hoo : e0.gOutsideLine[k] with
    | true => simp
    | false =>
      rw [hoo] at hok
      have hf := ((k4 k _ hnk).2 hok).1
      rw [hfa', hf, hnom, hem]
      simp only [Option.getD_some, Bool.false_eq_true, if_false]
      have hx0 : 0 ≤ e0.nominal[k] := hn _ (List.getElem_mem _)
      have hl : Amp.lineAmp e0 a e0.nominal[k] = a * e0.nominal[k] := by
        unfold Amp.lineAmp
        rcases hcap with hc | hc | hc
        · rw [if_neg (by rw [hc]; simp)]
        · rw [if_neg (by rintro ⟨-, h2⟩; exact absurd h2 (not_lt.2 hc))]
        · split_ifs
          · exact min_eq_left (hc _ (List.getElem_mem _))
          · rfl
      rw [hl, if_neg (not_lt.2 (mul_nonneg ha hx0)), List.getD_eq_getElem?_getD, hnk]
      simp only [Option.getD_some]
      split_ifs <;> ring

theorem physElt_scale (e : Amp.Elt K) (a norm : K) (hn : norm ≠ 0) (prof : Nat → K) (c : K) : physElt e a prof c = norm * physElt e (a / norm) prof c := by
  unfold physElt
  split_ifs
  · simp
  · rw [← List.sum_map_mul_left]
    congr 1
    apply List.map_congr_left
    intro k _
    unfold physLine
    split_ifs
    · simp
    · field_simp
    · field_simp

/-- The sum of the models, position by position. -/
theorem modelSum_eq (prof : Prof K) (st : List (P K)) (x c : K) (g : Nat → K) : ∀ (idx : List Nat) (k : Nat) (s : K),
    (∀ (pos i : Nat), idx[pos]? = some i → ∃ p, st[i]? = some p ∧ modelAt p.a (prof i p.velE p.velA p.off x) c = g (k + pos)) →
    modelSum prof st x c idx s = .ok (s + ((List.range idx.length).map fun pos => g (k + pos)).sum) := by
  intro idx
  induction idx with
  | nil => intro k s _; simp [modelSum]
  | cons i l ih =>
    intro k s h
    obtain ⟨p, h1, h2⟩ := h 0 i rfl
    unfold modelSum
    rw [(Res.at_eq_ok).2 h1, Res.bind_ok, h2, ih (k + 1) _ (fun pos j hj => by
      obtain ⟨p, e1, e2⟩ := h (pos + 1) j (by simpa using hj)
      exact ⟨p, e1, by rw [e2]; congr 1; omega⟩)]
    rw [List.length_cons, List.range_succ_eq_map, List.map_cons, List.sum_cons, List.map_map]
    congr 1
    rw [Nat.add_zero, add_assoc]
    congr 3
    apply List.map_congr_left
    intro a _
    simp only [Function.comp]
    congr 1; omega

theorem sumData_eq {s : Spc K} {norm : K} : ∀ (xs : List Nat) (a d : K), sumData s norm xs a = .ok d →
    d = a + (xs.map fun i => (s.flux.getD i 0 * norm) * (s.flux.getD i 0 * norm) / (s.err.getD i 0 * norm * (s.err.getD i 0 * norm))).sum ∧ ∀ i ∈ xs, s.err.getD i 0 * norm ≠ 0 := by
  intro xs
  induction xs with
  | nil => intro a d h; unfold sumData at h; cases h; simp
  | cons i l ih =>
    intro a d h
    unfold sumData at h
    obtain ⟨y, hy, h⟩ := Res.bind_eq_ok.1 h
    obtain ⟨e, he, h⟩ := Res.bind_eq_ok.1 h
    split_ifs at h with h0
    obtain ⟨h1, h2⟩ := ih _ _ h
    have ey : s.flux.getD i 0 = y := by rw [List.getD_eq_getElem?_getD, Res.at_eq_ok.1 hy]; rfl
    have ee : s.err.getD i 0 = e := by rw [List.getD_eq_getElem?_getD, Res.at_eq_ok.1 he]; rfl
    refine ⟨by rw [h1, List.map_cons, List.sum_cons, ey, ee, add_assoc], ?_⟩
    intro j hj
    rcases List.mem_cons.1 hj with rfl | hj
    · rw [ee]; exact h0
    · exact h2 j hj

theorem leastSq_eq {c : Cfg K} {prof : Prof K} {s : Spc K} {norm : K} {pc : Polynom.Norm K} {idx : List Nat} {st : List (P K)} {g : Nat → K}
    (hg : ∀ (p : Nat) (x q : K), s.axis[p]? = some x → s.cont[p]? = some q → ∀ f, (modelSum prof st x q idx 0 >>= fun f => (if c.polyFit then pc.value x >>= fun v => .ok (f + v) else .ok f)) = .ok f → f = norm * g p) :
    ∀ (xs : List Nat) (a v : K), leastSq c prof s norm pc idx st xs a = .ok v →
    v = a + (xs.map fun i => (norm * g i * (norm * g i) - 2 * (s.flux.getD i 0 * norm) * (norm * g i)) / (s.err.getD i 0 * norm * (s.err.getD i 0 * norm))).sum := by
  intro xs
  induction xs with
  | nil => intro a v h; unfold leastSq at h; cases h; simp
  | cons i l ih =>
    intro a v h
    unfold leastSq at h
    obtain ⟨x, hx, h⟩ := Res.bind_eq_ok.1 h
    obtain ⟨y, hy, h⟩ := Res.bind_eq_ok.1 h
    obtain ⟨e, he, h⟩ := Res.bind_eq_ok.1 h
    obtain ⟨q, hq, h⟩ := Res.bind_eq_ok.1 h
    obtain ⟨f, hf, h⟩ := Res.bind_eq_ok.1 h
    obtain ⟨f', hf', h⟩ := Res.bind_eq_ok.1 h
    split_ifs at h with h0
    have hfe : f' = norm * g i := hg i x q (Res.at_eq_ok.1 hx) (Res.at_eq_ok.1 hq) f' (by rw [hf, Res.bind_ok, hf'])
    have ey : s.flux.getD i 0 = y := by rw [List.getD_eq_getElem?_getD, Res.at_eq_ok.1 hy]; rfl
    have ee : s.err.getD i 0 = e := by rw [List.getD_eq_getElem?_getD, Res.at_eq_ok.1 he]; rfl
    rw [ih _ _ h, List.map_cons, List.sum_cons, ey, ee, hfe, add_assoc]

theorem sum_map_add' (f g : Nat → K) : ∀ l : List Nat, (l.map f).sum + (l.map g).sum = (l.map fun i => f i + g i).sum := by
  intro l
  induction l with
  | nil => simp
  | cons a l ih => simp only [List.map_cons, List.sum_cons]; rw [← ih]; ring

/-- The model of the group in spectrum units at a sample: elements of amplitudes `x / norm` with the velocities, offsets and lines in range of `st'`, plus the polynomial divided by `norm`. -/
def physModel (c : Cfg K) (prof : Prof K) (norm : K) (q : Polynom.Norm K) (idx : List Nat) (x : List K) (st' : List (P K)) (w cont : K) : K :=
  ((List.range idx.length).map fun pos => match (idx[pos]?).bind (fun i => (st'[i]?).map fun p => (i, p)) with
    | some (i, p) => physElt p.a (x.getD pos 0 / norm) (prof i p.velE p.velA p.off w) cont
    | none => 0).sum + (if c.polyFit then (q.a0 + q.a1 * (w / q.scale + q.x0red) + q.a2 * (w / q.scale + q.x0red) * (w / q.scale + q.x0red)) / norm else 0)

/-- **C148** The cost is the chi2 of the spectrum without continuum with the model of the group, in the units of the spectrum whatever the normalisation: for amplitudes that are not negative and below the limit of the
absorption, when the lines in the range are the same as at the previous evaluation. -/
theorem C148_cost_partial {c : Cfg K} {l : Lay} {prep : Nat → K → K → List K → Bool × List Bool} {prof : Prof K} {s : Spc K} {norm : K} {pc q : Polynom.Norm K} {xs idx : List Nat} {x : List K} {st st' : List (P K)} {v : K}
    (hd : idx.Nodup) (hnorm : 0 < norm) (h : cost c l prep prof s norm pc xs idx x st = .ok (st', v)) (hq : unpackPoly c l pc x = .ok q)
    (hw : ∀ i ∈ idx, ∀ p, st[i]? = some p → Amp.WF p.a ∧ ∀ n ∈ p.a.nominal, 0 ≤ n)
    (hflags : ∀ i ∈ idx, ∀ p p', st[i]? = some p → st'[i]? = some p' → p'.a.outside = p.a.gOutside ∧ p'.a.outsideLine = p.a.gOutsideLine)
    (hx : ∀ (pos i : Nat) p a, idx[pos]? = some i → st[i]? = some p → x[pos]? = some a → 0 ≤ a ∧ (p.a.isEmission = true ∨ p.a.absLimit ≤ 0 ∨ ∀ n ∈ p.a.nominal, a * n ≤ p.a.absLimit)) :
    v = (xs.map fun i => ((s.flux.getD i 0 - physModel c prof norm q idx x st' (s.axis.getD i 0) (s.cont.getD i 0)) / s.err.getD i 0) ^ 2).sum := by
  unfold cost at h
  obtain ⟨s1, h1, h⟩ := Res.bind_eq_ok.1 h
  obtain ⟨q', h2, h⟩ := Res.bind_eq_ok.1 h
  obtain ⟨d, h3, h⟩ := Res.bind_eq_ok.1 h
  obtain ⟨v', h4, h⟩ := Res.bind_eq_ok.1 h
  cases h
  rw [hq] at h2; cases h2
  obtain ⟨-, hu⟩ := unpack_spec hd h1
  obtain ⟨hd1, hd2⟩ := sumData_eq _ _ _ h3
  have hne : norm ≠ 0 := hnorm.ne'
  have hl := leastSq_eq (g := fun p => physModel c prof norm q idx x st' (s.axis.getD p 0) (s.cont.getD p 0)) (by
    intro p w cn hw1 hc1 f hf
    have ew : s.axis.getD p 0 = w := by rw [List.getD_eq_getElem?_getD, hw1]; rfl
    have ec : s.cont.getD p 0 = cn := by rw [List.getD_eq_getElem?_getD, hc1]; rfl
    rw [ew, ec]
    obtain ⟨f0, hf0, hf1⟩ := Res.bind_eq_ok.1 hf
    rw [modelSum_eq prof st' w cn (fun pos => norm * match (idx[pos]?).bind (fun i => (st'[i]?).map fun p => (i, p)) with
        | some (i, p) => physElt p.a (x.getD pos 0 / norm) (prof i p.velE p.velA p.off w) cn
        | none => 0) idx 0 0 (by
      intro pos i hi
      obtain ⟨p0, p', a, e, k1, k2, k3, k4, k5, k6, k7⟩ := hu pos i hi
      refine ⟨p', k2, ?_⟩
      have him := List.mem_of_getElem? hi
      obtain ⟨g1, g2⟩ := hflags i him p0 p' k1 k2
      obtain ⟨g3, g4⟩ := hw i him p0 k1
      obtain ⟨g5, g6⟩ := hx pos i p0 a hi k1 k3
      rw [Nat.zero_add, hi]
      simp only [Option.bind_some, k2, Option.map_some]
      have hxa : x.getD pos 0 = a := by rw [List.getD_eq_getElem?_getD, k3]; rfl
      rw [hxa, ← physElt_scale _ _ _ hne]
      refine modelAt_phys k4 g3 ?_ g5 g4 g6 _ _
      rw [← g1, ← g2]
      rw [k7]
      rfl)] at hf0
    cases hf0
    rw [zero_add] at hf1
    unfold physModel
    rw [mul_add, ← List.sum_map_mul_left]
    simp only [Nat.zero_add] at hf1
    split_ifs at hf1 ⊢ with hp
    · obtain ⟨pv, hv1, hv2⟩ := Res.bind_eq_ok.1 hf1
      cases hv2
      unfold Polynom.Norm.value at hv1
      split_ifs at hv1 with hsc
      cases hv1
      rw [mul_div_cancel₀ _ hne]
    · cases hf1; rw [mul_zero, add_zero]) xs d v h4
  rw [hl, hd1, zero_add, sum_map_add']
  congr 1
  apply List.map_congr_left
  intro i hi
  have he := hd2 i hi
  have he' : s.err.getD i 0 ≠ 0 := left_ne_zero_of_mul he
  field_simp
  ring

end Lbfgs
end Amazed
