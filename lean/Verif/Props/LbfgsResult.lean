import Verif.Props.LbfgsCost

set_option linter.unusedVariables false
set_option linter.unusedSectionVars false

/-! # C149-C151: what the non-linear fit stores -/

namespace Amazed
namespace Lbfgs

open Amp (LType)

variable {K : Type} [Field K] [LinearOrder K] [IsStrictOrderedRing K]

/-- Lines in range over all the spectra, from those of the spectrum. -/
def glob (p : P K) : P K := { p with a := { p.a with gOutside := p.a.outside, gOutsideLine := p.a.outsideLine } }

/-- What the evaluations of the cost may have changed in an element: its amplitudes, its lines in range, the velocity of its type, its offsets. -/
structure Drift (c : Cfg K) (p p' : P K) : Prop where
  fixed : SameFixed p p'
  velE : c.velFit = false ∨ p.a.isEmission = false → p'.velE = p.velE
  velA : c.velFit = false ∨ p.a.isEmission = true → p'.velA = p.velA
  off : c.offFit = false → p'.off = p.off
  poly : p'.poly = p.poly

theorem Drift.refl (c : Cfg K) (p : P K) : Drift c p p := ⟨SameFixed.refl p, fun _ => rfl, fun _ => rfl, fun _ => rfl, rfl⟩

theorem Drift.trans {c : Cfg K} {p q r : P K} (h : Drift c p q) (g : Drift c q r) : Drift c p r := by
  refine ⟨h.fixed.trans g.fixed, fun k => ?_, fun k => ?_, fun k => (g.off k).trans (h.off k), g.poly.trans h.poly⟩
  · exact (g.velE (by rw [h.fixed.isEmission]; exact k)).trans (h.velE k)
  · exact (g.velA (by rw [h.fixed.isEmission]; exact k)).trans (h.velA k)

/-- The elements out of the group are untouched, except that their lines in range are copied. -/
def Kept (p p' : P K) : Prop := p' = p ∨ p' = glob p

theorem Kept.trans {p q r : P K} (h : Kept p q) (g : Kept q r) : Kept p r := by
  rcases h with rfl | rfl
  · exact g
  · rcases g with rfl | rfl
    · exact Or.inr rfl
    · exact Or.inr rfl

theorem globals_glob (st : List (P K)) (i : Nat) : (globals st)[i]? = (st[i]?).map glob := globals_get st i

theorem unpack_kept {c : Cfg K} {l : Lay} {prep : Nat → K → K → List K → Bool × List Bool} {idx : List Nat} {x : List K} {st st' : List (P K)} (hd : idx.Nodup) (h : unpack c l prep idx x st = .ok st') :
    ∀ i p, i ∉ idx → st[i]? = some p → ∃ p', st'[i]? = some p' ∧ Kept p p' := by
  intro i p hi hp
  unfold unpack at h
  obtain ⟨s1, h1, h⟩ := Res.bind_eq_ok.1 h
  obtain ⟨s2, h2, h⟩ := Res.bind_eq_ok.1 h
  obtain ⟨s3, h3, h⟩ := Res.bind_eq_ok.1 h
  obtain ⟨s4, h4, h⟩ := Res.bind_eq_ok.1 h
  cases h
  have e1 := (each_spec _ _ _ _ hd h1).2.2 i hi
  have e2 : s2[i]? = s1[i]? := by
    split_ifs at h2
    · exact (each_spec _ _ _ _ hd h2).2.2 i hi
    · cases h2; rfl
  have e3 : s3[i]? = s2[i]? := by
    split_ifs at h3
    · exact (each_spec _ _ _ _ hd h3).2.2 i hi
    · cases h3; rfl
  have e4 := (prepAll_spec _ _ _ hd h4).2.2 i hi
  exact ⟨glob p, by rw [globals_glob, e4, e3, e2, e1, hp]; rfl, Or.inr rfl⟩

theorem Moved.drift {c : Cfg K} {l : Lay} {x : List K} {p p' : P K} (h : Moved c l x p p') (hf : SameFixed p p') : Drift c p p' := ⟨hf, h.velE', h.velA', h.off', h.poly⟩

theorem evals_spec {c : Cfg K} {l : Lay} {prep : Nat → K → K → List K → Bool × List Bool} {prof : Prof K} {s : Spc K} {norm : K} {pc : Polynom.Norm K} {xs idx : List Nat} (hd : idx.Nodup) :
    ∀ (tr : List (List K)) (st st' : List (P K)), evals (cost c l prep prof s norm pc xs idx) tr st = .ok st' →
    st'.length = st.length ∧ (∀ i p, i ∈ idx → st[i]? = some p → ∃ p', st'[i]? = some p' ∧ Drift c p p') ∧ ∀ i p, i ∉ idx → st[i]? = some p → ∃ p', st'[i]? = some p' ∧ Kept p p' := by
  intro tr
  induction tr with
  | nil => intro st st' h; unfold evals at h; cases h; exact ⟨rfl, fun i p _ hp => ⟨p, hp, Drift.refl c p⟩, fun i p _ hp => ⟨p, hp, Or.inl rfl⟩⟩
  | cons x tr ih =>
    intro st st' h
    unfold evals at h
    obtain ⟨⟨s1, v⟩, h1, h⟩ := Res.bind_eq_ok.1 h
    obtain ⟨e1, e2, e3⟩ := ih _ _ h
    unfold cost at h1
    obtain ⟨s1', g1, h1⟩ := Res.bind_eq_ok.1 h1
    obtain ⟨q, g2, h1⟩ := Res.bind_eq_ok.1 h1
    obtain ⟨d, g3, h1⟩ := Res.bind_eq_ok.1 h1
    obtain ⟨w, g4, h1⟩ := Res.bind_eq_ok.1 h1
    cases h1
    obtain ⟨l1, u1⟩ := unpack_spec hd g1
    refine ⟨e1.trans l1, ?_, ?_⟩
    · intro i p hi hp
      obtain ⟨pos, hpos⟩ := List.getElem?_of_mem hi
      obtain ⟨p0, p1, a, e, k1, k2, k3, k4, k5, k6, k7⟩ := u1 pos i hpos
      rw [hp] at k1; cases k1
      obtain ⟨p2, m1, m2⟩ := e2 i p1 hi k2
      exact ⟨p2, m1, (k6.drift k5).trans m2⟩
    · intro i p hi hp
      obtain ⟨p1, k1, k2⟩ := unpack_kept hd g1 i p hi hp
      obtain ⟨p2, m1, m2⟩ := e3 i p1 hi k1
      exact ⟨p2, m1, k2.trans m2⟩

/-- The velocity, the offsets and the polynomial of an element at a point of the minimiser. -/
structure Stored (c : Cfg K) (l : Lay) (norm : K) (pc : Polynom.Norm K) (r : List K) (p p' : P K) : Prop where
  fixed : SameFixed p p'
  velA : c.velFit = true → (if l.type = .all then p.a.type else l.type) = .absorption → ∃ v, rd r l.velA = .ok v ∧ p'.velA = v * c.maxE ∧ p'.velE = p.velE
  velE : c.velFit = true → (if l.type = .all then p.a.type else l.type) ≠ .absorption → ∃ v, rd r l.velE = .ok v ∧ p'.velE = v * c.maxE ∧ p'.velA = p.velA
  vel : c.velFit = false → p'.velE = p.velE ∧ p'.velA = p.velA
  off : c.offFit = true → c.light ≠ 0 ∧ ∃ d, rd r l.off = .ok d ∧ p'.off = p.cat.map (shift c (d * normOff c))
  off' : c.offFit = false → p'.off = p.off
  poly : c.polyFit = true → ∃ q k, unpackPoly c l pc r = .ok q ∧ q.getCoeffs = .ok k ∧ p'.poly = ⟨k.a0 / norm, k.a1 / norm, k.a2 / norm⟩
  poly' : c.polyFit = false → p'.poly = p.poly

theorem store_spec {c : Cfg K} {l : Lay} {norm : K} {pc : Polynom.Norm K} {idx : List Nat} {r : List K} {st st' : List (P K)} (hd : idx.Nodup) (h : store c l norm pc idx r st = .ok st') :
    st'.length = st.length ∧ (∀ (pos i : Nat), idx[pos]? = some i → ∃ p p' a e, st[i]? = some p ∧ st'[i]? = some p' ∧ r[pos]? = some a ∧ Amp.setAmplitude p.a (some (a / norm)) none = .ok e ∧ p'.a = e ∧
      Stored c l norm pc r p p') ∧ ∀ i, i ∉ idx → st'[i]? = st[i]? := by
  unfold store at h
  obtain ⟨s1, h1, h⟩ := Res.bind_eq_ok.1 h
  obtain ⟨s2, h2, h⟩ := Res.bind_eq_ok.1 h
  obtain ⟨s3, h3, h⟩ := Res.bind_eq_ok.1 h
  obtain ⟨l1, e1, f1⟩ := each_spec _ _ _ _ hd h1
  have E2 : s2.length = s1.length ∧ (∀ (pos i : Nat), idx[pos]? = some i → ∃ p p', s1[i]? = some p ∧ s2[i]? = some p' ∧ (if c.velFit then storeVel c l r p else .ok p) = .ok p') ∧ ∀ i, i ∉ idx → s2[i]? = s1[i]? := by
    by_cases hv : c.velFit = true
    · rw [if_pos hv] at h2
      obtain ⟨a, b, d⟩ := each_spec _ _ _ _ hd h2
      refine ⟨a, fun pos i hi => ?_, d⟩
      obtain ⟨p, p', q1, q2, q3⟩ := b pos i hi
      exact ⟨p, p', q1, q3, by rw [if_pos hv]; exact q2⟩
    · rw [if_neg hv] at h2; cases h2
      refine ⟨rfl, fun pos i hi => ?_, fun _ _ => rfl⟩
      obtain ⟨p, p', q1, q2, q3⟩ := e1 pos i hi
      exact ⟨p', p', q3, q3, by rw [if_neg hv]⟩
  obtain ⟨l2, e2, f2⟩ := E2
  have E3 : s3.length = s2.length ∧ (∀ (pos i : Nat), idx[pos]? = some i → ∃ p p', s2[i]? = some p ∧ s3[i]? = some p' ∧ (if c.offFit then offOf c l r p else .ok p) = .ok p') ∧ ∀ i, i ∉ idx → s3[i]? = s2[i]? := by
    by_cases hv : c.offFit = true
    · rw [if_pos hv] at h3
      obtain ⟨a, b, d⟩ := each_spec _ _ _ _ hd h3
      refine ⟨a, fun pos i hi => ?_, d⟩
      obtain ⟨p, p', q1, q2, q3⟩ := b pos i hi
      exact ⟨p, p', q1, q3, by rw [if_pos hv]; exact q2⟩
    · rw [if_neg hv] at h3; cases h3
      refine ⟨rfl, fun pos i hi => ?_, fun _ _ => rfl⟩
      obtain ⟨p, p', q1, q2, q3⟩ := e2 pos i hi
      exact ⟨p', p', q2, q2, by rw [if_neg hv]⟩
  obtain ⟨l3, e3, f3⟩ := E3
  have E4 : st'.length = s3.length ∧ (∀ (pos i : Nat), idx[pos]? = some i → ∃ p p', s3[i]? = some p ∧ st'[i]? = some p' ∧
      (c.polyFit = true → ∃ q k, unpackPoly c l pc r = .ok q ∧ q.getCoeffs = .ok k ∧ p' = storePoly norm k p) ∧ (c.polyFit = false → p' = p)) ∧ ∀ i, i ∉ idx → st'[i]? = s3[i]? := by
    by_cases hv : c.polyFit = true
    · rw [if_pos hv] at h
      obtain ⟨q, hq, h⟩ := Res.bind_eq_ok.1 h
      obtain ⟨k, hk, h⟩ := Res.bind_eq_ok.1 h
      obtain ⟨a, b, d⟩ := each_spec _ _ _ _ hd h
      refine ⟨a, fun pos i hi => ?_, d⟩
      obtain ⟨p, p', q1, q2, q3⟩ := b pos i hi
      cases q2
      exact ⟨p, _, q1, q3, fun _ => ⟨q, k, hq, hk, rfl⟩, fun e => (by rw [hv] at e; cases e)⟩
    · rw [if_neg hv] at h; cases h
      refine ⟨rfl, fun pos i hi => ?_, fun _ _ => rfl⟩
      obtain ⟨p, p', q1, q2, q3⟩ := e3 pos i hi
      exact ⟨p', p', q2, q2, fun e => absurd e hv, fun _ => rfl⟩
  obtain ⟨l4, e4, f4⟩ := E4
  refine ⟨by rw [l4, l3, l2, l1], ?_, fun i hi => by rw [f4 i hi, f3 i hi, f2 i hi, f1 i hi]⟩
  intro pos i hi
  obtain ⟨p0, p1, q1, q2, q3⟩ := e1 pos i hi
  rw [Nat.zero_add] at q2
  obtain ⟨a, ha, q2⟩ := Res.bind_eq_ok.1 q2
  unfold P.setAmp at q2
  obtain ⟨e, he, q2⟩ := Res.bind_eq_ok.1 q2
  cases q2
  obtain ⟨p1', p2, r1, r2, r3⟩ := e2 pos i hi
  rw [q3] at r1; cases r1
  obtain ⟨p2', p3, t1, t2, t3⟩ := e3 pos i hi
  rw [r2] at t1; cases t1
  obtain ⟨p3', p4, u1, u2, u3, u4⟩ := e4 pos i hi
  rw [t2] at u1; cases u1
  obtain ⟨fa, fs, hfa⟩ := (SvdFit.setAmplitude_spec he).1
  have hty : e.type = p0.a.type := by rw [hfa]
  have A2 : p2.a = e ∧ p2.cat = p0.cat ∧ p2.off = p0.off ∧ p2.poly = p0.poly ∧
      (c.velFit = true → (if l.type = .all then p0.a.type else l.type) = .absorption → ∃ v, rd r l.velA = .ok v ∧ p2.velA = v * c.maxE ∧ p2.velE = p0.velE) ∧
      (c.velFit = true → (if l.type = .all then p0.a.type else l.type) ≠ .absorption → ∃ v, rd r l.velE = .ok v ∧ p2.velE = v * c.maxE ∧ p2.velA = p0.velA) ∧
      (c.velFit = false → p2.velE = p0.velE ∧ p2.velA = p0.velA) := by
    by_cases hv : c.velFit = true
    · rw [if_pos hv] at r3
      unfold storeVel at r3
      simp only [hty] at r3
      by_cases hE : (if l.type = .all then p0.a.type else l.type) = .absorption
      · rw [if_pos hE] at r3
        obtain ⟨v, k1, k2⟩ := Res.bind_eq_ok.1 r3
        cases k2
        exact ⟨rfl, rfl, rfl, rfl, fun _ _ => ⟨v, k1, rfl, rfl⟩, fun _ k => absurd hE k, fun k => (by rw [hv] at k; cases k)⟩
      · rw [if_neg hE] at r3
        obtain ⟨v, k1, k2⟩ := Res.bind_eq_ok.1 r3
        cases k2
        exact ⟨rfl, rfl, rfl, rfl, fun _ k => absurd k hE, fun _ _ => ⟨v, k1, rfl, rfl⟩, fun k => (by rw [hv] at k; cases k)⟩
    · rw [if_neg hv] at r3; cases r3
      exact ⟨rfl, rfl, rfl, rfl, fun k => absurd k hv, fun k => absurd k hv, fun _ => ⟨rfl, rfl⟩⟩
  obtain ⟨a1, a2, a3, a4, a5, a6, a7⟩ := A2
  have A3 : p3.a = e ∧ p3.cat = p0.cat ∧ p3.poly = p0.poly ∧ p3.velE = p2.velE ∧ p3.velA = p2.velA ∧
      (c.offFit = true → c.light ≠ 0 ∧ ∃ d, rd r l.off = .ok d ∧ p3.off = p0.cat.map (shift c (d * normOff c))) ∧ (c.offFit = false → p3.off = p0.off) := by
    by_cases hv : c.offFit = true
    · rw [if_pos hv] at t3
      unfold offOf at t3
      by_cases hl : c.light = 0
      · rw [if_pos hl] at t3; cases t3
      · rw [if_neg hl] at t3
        obtain ⟨d, k1, k2⟩ := Res.bind_eq_ok.1 t3
        cases k2
        exact ⟨a1, a2, a4, rfl, rfl, fun _ => ⟨hl, d, k1, by simp only [a2]⟩, fun k => (by rw [hv] at k; cases k)⟩
    · rw [if_neg hv] at t3; cases t3
      exact ⟨a1, a2, a4, rfl, rfl, fun k => absurd k hv, fun _ => a3⟩
  obtain ⟨b1, b2, b3, b4, b5, b6, b7⟩ := A3
  have A4 : p4.a = e ∧ p4.cat = p3.cat ∧ p4.off = p3.off ∧ p4.velE = p3.velE ∧ p4.velA = p3.velA := by
    by_cases hv : c.polyFit = true
    · obtain ⟨q, k, -, -, rfl⟩ := u3 hv
      exact ⟨b1, rfl, rfl, rfl, rfl⟩
    · rw [Bool.not_eq_true] at hv
      rw [u4 hv]
      exact ⟨b1, rfl, rfl, rfl, rfl⟩
  obtain ⟨d1, d2, d3, d4, d5⟩ := A4
  refine ⟨p0, p4, a, e, q1, u2, Res.at_eq_ok.1 ha, he, d1, ⟨⟨by rw [d1, hfa], by rw [d1, hfa], by rw [d1, hfa], by rw [d1, hfa], by rw [d1, hfa], by rw [d2, b2]⟩, ?_, ?_, ?_, ?_, ?_, ?_, ?_⟩⟩
  · intro k1 k2
    obtain ⟨v, m1, m2, m3⟩ := a5 k1 k2
    exact ⟨v, m1, by rw [d5, b5, m2], by rw [d4, b4, m3]⟩
  · intro k1 k2
    obtain ⟨v, m1, m2, m3⟩ := a6 k1 k2
    exact ⟨v, m1, by rw [d4, b4, m2], by rw [d5, b5, m3]⟩
  · intro k; rw [d4, d5, b4, b5]; exact a7 k
  · intro k; rw [d3]; exact b6 k
  · intro k; rw [d3]; exact b7 k
  · intro k
    obtain ⟨q, w, m1, m2, rfl⟩ := u3 k
    exact ⟨q, w, m1, m2, rfl⟩
  · intro k; rw [u4 k]; exact b3

/-- The element before the position `pos` of the group are all in the range at the end. -/
def InUpTo (idx : List Nat) (st : List (P K)) (pos : Nat) : Prop := ∀ (q j : Nat) p, q < pos → idx[q]? = some j → st[j]? = some p → p.a.outside = false

theorem uncert_spec {sd : Nat → Option K} {norm : K} {x : List K} : ∀ (idx : List Nat) (k : Nat) (st st' : List (P K)), idx.Nodup → (∀ i ∈ idx, i < st.length) → uncert sd norm x idx k st = .ok st' →
    st'.length = st.length ∧ (∀ i, i ∉ idx → st'[i]? = st[i]?) ∧
    ∀ (pos i : Nat), idx[pos]? = some i → ∃ p p', st[i]? = some p ∧ st'[i]? = some p' ∧ (∃ fa fs, p' = { p with a := { p.a with fa := fa, fastd := fs } }) ∧
      (InUpTo idx st (pos + 1) → ∃ a e s, x[k + pos]? = some a ∧ Amp.setAmplitude p.a (some (a / norm)) (sd i) = .ok e ∧ divStd e.fastd e.nominal = .ok s ∧ p'.a = { e with fastd := s }) ∧
      (InUpTo idx st pos → p.a.outside = true → Amp.setAmplitude p.a none none = .ok p'.a) ∧
      (¬ InUpTo idx st pos → p' = p) := by
  intro idx
  induction idx with
  | nil => intro k st st' _ _ h; unfold uncert at h; cases h; exact ⟨rfl, fun _ _ => rfl, by simp⟩
  | cons i l ih =>
    intro k st st' hd hb h
    obtain ⟨hi, hd'⟩ := List.nodup_cons.1 hd
    unfold uncert at h
    obtain ⟨p, hp, h⟩ := Res.bind_eq_ok.1 h
    obtain ⟨a, ha, h⟩ := Res.bind_eq_ok.1 h
    have hp1 := Res.at_eq_ok.1 hp
    have hlt : i < st.length := (List.getElem?_eq_some_iff.1 hp1).1
    by_cases ho : p.a.outside = true
    · rw [if_pos ho] at h
      obtain ⟨p', hp', h⟩ := Res.bind_eq_ok.1 h
      cases h
      unfold P.setAmp at hp'
      obtain ⟨e, he, hp'⟩ := Res.bind_eq_ok.1 hp'
      cases hp'
      obtain ⟨fa, fs, hfa⟩ := (SvdFit.setAmplitude_spec he).1
      refine ⟨by rw [List.length_set], fun j hj => by rw [List.mem_cons, not_or] at hj; rw [List.getElem?_set_ne (fun e => hj.1 e.symm)], ?_⟩
      intro pos j hj
      cases pos with
      | zero =>
        simp at hj; subst hj
        refine ⟨p, _, hp1, by rw [List.getElem?_set_self hlt], ⟨fa, fs, by rw [hfa]⟩, ?_, fun _ _ => he, fun hn => absurd (fun q j p hq => absurd hq (Nat.not_lt_zero q)) hn⟩
        intro hin
        have := hin 0 i p (by omega) rfl hp1
        rw [ho] at this; cases this
      | succ q =>
        rw [List.getElem?_cons_succ] at hj
        have hne : i ≠ j := by rintro rfl; exact hi (List.mem_of_getElem? hj)
        have hout : ∀ n, ¬ InUpTo (i :: l) st (n + 1) := by
          intro n hin
          have := hin 0 i p (by omega) rfl hp1
          rw [ho] at this; cases this
        obtain ⟨pj, hpj⟩ : ∃ pj, st[j]? = some pj := ⟨_, List.getElem?_eq_getElem (hb j (List.mem_cons_of_mem _ (List.mem_of_getElem? hj)))⟩
        exact ⟨pj, pj, hpj, by rw [List.getElem?_set_ne hne]; exact hpj, ⟨pj.a.fa, pj.a.fastd, rfl⟩, fun hin => absurd hin (hout _), fun hin => absurd hin (hout _), fun _ => rfl⟩
    · rw [if_neg ho] at h
      obtain ⟨p', hp', h⟩ := Res.bind_eq_ok.1 h
      obtain ⟨s, hs, h⟩ := Res.bind_eq_ok.1 h
      unfold P.setAmp at hp'
      obtain ⟨e, he, hp'⟩ := Res.bind_eq_ok.1 hp'
      cases hp'
      obtain ⟨fa, fs, hfa⟩ := (SvdFit.setAmplitude_spec he).1
      rw [Bool.not_eq_true] at ho
      obtain ⟨g1, g2, g3⟩ := ih (k + 1) _ st' hd' (fun j hj => by rw [List.length_set]; exact hb j (List.mem_cons_of_mem _ hj)) h
      have hin : ∀ n, InUpTo l (st.set i { { p with a := e } with a := { e with fastd := s } }) n ↔ InUpTo (i :: l) st (n + 1) := by
        intro n
        constructor
        · intro hh q j pj hq hj hpj
          cases q with
          | zero => simp at hj; subst hj; rw [hp1] at hpj; cases hpj; exact ho
          | succ q =>
            rw [List.getElem?_cons_succ] at hj
            have hne : i ≠ j := by rintro rfl; exact hi (List.mem_of_getElem? hj)
            exact hh q j pj (by omega) hj (by rw [List.getElem?_set_ne hne]; exact hpj)
        · intro hh q j pj hq hj hpj
          have hne : i ≠ j := by rintro rfl; exact hi (List.mem_of_getElem? hj)
          rw [List.getElem?_set_ne hne] at hpj
          exact hh (q + 1) j pj (by omega) (by rw [List.getElem?_cons_succ]; exact hj) hpj
      refine ⟨by rw [g1, List.length_set], fun j hj => by rw [List.mem_cons, not_or] at hj; rw [g2 j hj.2, List.getElem?_set_ne (fun e => hj.1 e.symm)], ?_⟩
      intro pos j hj
      cases pos with
      | zero =>
        simp at hj; subst hj
        refine ⟨p, _, hp1, by rw [g2 i hi, List.getElem?_set_self hlt], ⟨fa, s, by rw [hfa]⟩, fun _ => ⟨a, e, s, by rw [Nat.add_zero]; exact Res.at_eq_ok.1 ha, he, hs, rfl⟩, fun _ k => ?_, fun hn => absurd (fun q j p hq => absurd hq (Nat.not_lt_zero q)) hn⟩
        rw [ho] at k; cases k
      | succ q =>
        rw [List.getElem?_cons_succ] at hj
        have hne : i ≠ j := by rintro rfl; exact hi (List.mem_of_getElem? hj)
        obtain ⟨pj, pj', m1, m2, m3, m4, m5, m6⟩ := g3 q j hj
        rw [List.getElem?_set_ne hne] at m1
        refine ⟨pj, pj', m1, m2, m3, fun hh => ?_, fun hh => m5 ((hin q).2 hh), fun hh => m6 (fun k => hh ((hin q).1 k))⟩
        obtain ⟨b, e', s', n1, n2⟩ := m4 ((hin (q + 1)).2 hh)
        exact ⟨b, e', s', by rw [← n1]; congr 1; omega, n2⟩

theorem setNone_fastd {e e' : Amp.Elt K} {a : Option K} (h : Amp.setAmplitude e a none = .ok e') : ∀ y ∈ e'.fastd, y = none := by
  unfold Amp.setAmplitude at h
  split_ifs at h with hc
  · cases h; intro y hy; exact (List.mem_replicate.1 hy).2
  · obtain ⟨t, ht, h⟩ := Res.bind_eq_ok.1 h
    cases h
    intro y hy
    simp only [List.mem_map] at hy
    obtain ⟨z, hz, rfl⟩ := hy
    obtain ⟨j, hj, rfl⟩ := List.getElem_of_mem hz
    have hlen := Res.tab_length _ ht
    have := Res.tab_get _ ht j (by omega)
    obtain ⟨w, hw1, hw2⟩ := this
    rw [List.getElem?_eq_getElem hj] at hw1
    cases hw1
    obtain ⟨o, ho, hw2⟩ := Res.bind_eq_ok.1 hw2
    split_ifs at hw2
    · injection hw2 with hw2
      rw [← hw2]
    · obtain ⟨n, hn, hw2⟩ := Res.bind_eq_ok.1 hw2
      injection hw2 with hw2
      rw [← hw2]
      unfold Amp.vMul
      rfl

/-- The final parameters of an element of the group, at the point `r` kept by the fit. -/
structure Final (c : Cfg K) (x : Ext K) (l : Lay) (norm : K) (pc : Polynom.Norm K) (r : List K) (i : Nat) (p p' : P K) : Prop where
  stored : Stored c l norm pc r p p'
  outside : p'.a.outside = (x.prep i p'.velE p'.velA p'.off).1
  outsideLine : p'.a.outsideLine = (x.prep i p'.velE p'.velA p'.off).2
  gOutside : p'.a.gOutside = p'.a.outside
  gOutsideLine : p'.a.gOutsideLine = p'.a.outsideLine

/-- The types of an element and of the group agree: an element is of absorption when it is not of emission, and the group has one type. -/
def TypeOk (l : Lay) (p : P K) : Prop := (if l.type = .all then p.a.type else l.type) = .absorption ↔ p.a.isEmission = false

theorem Stored.of_drift {c : Cfg K} {l : Lay} {norm : K} {pc : Polynom.Norm K} {r : List K} {p q s : P K} (ht : TypeOk l p) (h : Drift c p q) (g : Stored c l norm pc r q s) : Stored c l norm pc r p s := by
  refine ⟨h.fixed.trans g.fixed, ?_, ?_, ?_, ?_, ?_, g.poly, fun k => (g.poly' k).trans h.poly⟩
  · intro k1 k2
    obtain ⟨v, m1, m2, m3⟩ := g.velA k1 (by rw [h.fixed.type]; exact k2)
    exact ⟨v, m1, m2, by rw [m3, h.velE (Or.inr (ht.1 k2))]⟩
  · intro k1 k2
    obtain ⟨v, m1, m2, m3⟩ := g.velE k1 (by rw [h.fixed.type]; exact k2)
    have hE : p.a.isEmission = true := by
      cases he : p.a.isEmission with
      | true => rfl
      | false => exact absurd (ht.2 he) k2
    exact ⟨v, m1, m2, by rw [m3, h.velA (Or.inr hE)]⟩
  · intro k
    obtain ⟨a, b⟩ := g.vel k
    exact ⟨by rw [a, h.velE (Or.inl k)], by rw [b, h.velA (Or.inl k)]⟩
  · intro k
    obtain ⟨k0, d, m1, m2⟩ := g.off k
    exact ⟨k0, d, m1, by rw [m2, h.fixed.cat]⟩
  · intro k; rw [g.off' k, h.off k]

/-- **C149** After the fit, whatever the points the minimiser went through: the velocity, the offsets and the polynomial of each element of the group are those of the final point, the lines in
range are those for these parameters, everything else of the element (amplitudes aside) is as before; the elements out of the group keep all their parameters. When all the elements of the group up to this one are in the range, the amplitudes are those
of the final point too: the result does not depend on the path of the minimiser. -/
theorem C149_result {c : Cfg K} {x : Ext K} {l : Lay} {s : Spc K} {norm : K} {pc : Polynom.Norm K} {xs idx : List Nat} {pb : (List (Cell K) × List (Cell K)) × List (Cell K)} {st st' : List (P K)}
    (hd : idx.Nodup) (ht : ∀ i ∈ idx, ∀ p, st[i]? = some p → TypeOk l p) (h : solve c x l s norm pc xs idx pb st = .ok st') :
    ∃ guess, SvdFit.mapL Cell.get pb.2 = .ok guess ∧ st'.length = st.length ∧
      (∀ i p, i ∉ idx → st[i]? = some p → ∃ p', st'[i]? = some p' ∧ (p' = p ∨ p' = glob p)) ∧
      ∀ (pos i : Nat), idx[pos]? = some i → ∃ p p', st[i]? = some p ∧ st'[i]? = some p' ∧ Final c x l norm pc (x.best.getD guess) i p p' ∧
        (InUpTo idx st' (pos + 1) → ∃ a e sd s, (x.best.getD guess)[pos]? = some a ∧ Amp.setAmplitude (withFlags p.a (x.prep i p'.velE p'.velA p'.off)) (some (a / norm)) sd = .ok e ∧
          divStd e.fastd e.nominal = .ok s ∧ p'.a = { e with fastd := s }) ∧
        (InUpTo idx st' pos → p'.a.outside = true → p'.a.fa = List.replicate p.a.lines.length none ∧ p'.a.fastd = List.replicate p.a.lines.length none) ∧
        (¬ InUpTo idx st' pos → ∀ y ∈ p'.a.fastd, y = none) ∧
        ∃ a e0 e o sd, (x.best.getD guess)[pos]? = some a ∧ e0.nominal = p.a.nominal ∧ (o = none ∨ o = some (a / norm)) ∧ Amp.setAmplitude e0 o sd = .ok e ∧ p'.a.fa = e.fa := by
  unfold solve at h
  split_ifs at h with hset
  obtain ⟨guess, hg, h⟩ := Res.bind_eq_ok.1 h
  obtain ⟨s1, h1, h⟩ := Res.bind_eq_ok.1 h
  obtain ⟨s2, h2, h⟩ := Res.bind_eq_ok.1 h
  obtain ⟨s3, h3, h⟩ := Res.bind_eq_ok.1 h
  obtain ⟨l1, e1, f1⟩ := evals_spec hd _ _ _ h1
  obtain ⟨l2, e2, f2⟩ := store_spec hd h2
  obtain ⟨l3, e3, f3⟩ := prepAll_spec _ _ _ hd h3
  have hb : ∀ i ∈ idx, i < (globals s3).length := by
    intro i hi
    obtain ⟨p, hp, -⟩ := e3 i hi
    unfold globals
    rw [List.length_map, l3]
    exact (List.getElem?_eq_some_iff.1 hp).1
  obtain ⟨l4, f4, e4⟩ := uncert_spec idx 0 _ _ hd hb h
  have hlen : (globals s3).length = s3.length := by unfold globals; rw [List.length_map]
  refine ⟨guess, hg, by rw [l4, hlen, l3, l2, l1], ?_, ?_⟩
  · intro i p hi hp
    obtain ⟨p1, k1, k2⟩ := f1 i p hi hp
    refine ⟨glob p1, by rw [f4 i hi, globals_glob, f3 i hi, f2 i hi, k1]; rfl, ?_⟩
    rcases k2 with rfl | rfl
    · exact Or.inr rfl
    · exact Or.inr rfl
  · have hinup : ∀ n, InUpTo idx st' n ↔ InUpTo idx (globals s3) n := by
      intro n
      constructor
      · intro hh q j pj hq hj hpj
        obtain ⟨p, p', m1, m2, ⟨fa, fs, m3⟩, -⟩ := e4 q j hj
        rw [hpj] at m1; cases m1
        have := hh q j p' hq hj m2
        rw [m3] at this; exact this
      · intro hh q j pj hq hj hpj
        obtain ⟨p, p', m1, m2, ⟨fa, fs, m3⟩, -⟩ := e4 q j hj
        rw [hpj] at m2; cases m2
        have := hh q j p hq hj m1
        rw [m3]; exact this
    intro pos i hi
    have him := List.mem_of_getElem? hi
    obtain ⟨p1, p2, a, e, k1, k2, k3, k4, k5, k6⟩ := e2 pos i hi
    have hlt : i < st.length := by rw [← l1]; exact (List.getElem?_eq_some_iff.1 k1).1
    have hp0 : st[i]? = some st[i] := List.getElem?_eq_getElem hlt
    obtain ⟨p1', d1, d2⟩ := e1 i _ him hp0
    rw [k1] at d1; cases d1
    obtain ⟨p2', m1, m2⟩ := e3 i him
    rw [k2] at m1; cases m1
    obtain ⟨p4, p', n1, n2, ⟨fa, fs, n3⟩, n4, n5, n6⟩ := e4 pos i hi
    rw [globals_glob, m2] at n1
    cases n1
    have hst := Stored.of_drift (ht i him _ hp0) d2 k6
    have hfin : Final c x l norm pc (x.best.getD guess) i st[i] p' := by
      rw [n3]
      refine ⟨⟨⟨hst.fixed.1, hst.fixed.2, hst.fixed.3, hst.fixed.4, hst.fixed.5, hst.fixed.6⟩, hst.velA, hst.velE, hst.vel, hst.off, hst.off', hst.poly, hst.poly'⟩, rfl, rfl, rfl, rfl⟩
    have hvel : p'.velE = p2.velE ∧ p'.velA = p2.velA ∧ p'.off = p2.off := by rw [n3]; exact ⟨rfl, rfl, rfl⟩
    refine ⟨st[i], p', hp0, n2, hfin, ?_, ?_, ?_, ?_⟩
    · intro hh
      obtain ⟨a', e', s', q1, q2, q3, q4⟩ := n4 ((hinup _).1 hh)
      rw [Nat.zero_add] at q1
      refine ⟨a', e', x.sd (globals s3) i, s', q1, ?_, q3, q4⟩
      rw [← q2]
      have hsame : Amp.setAmplitude (withFlags st[i].a (x.prep i p'.velE p'.velA p'.off)) (some (a' / norm)) (x.sd (globals s3) i) = Amp.setAmplitude (glob (prepOf x.prep i p2)).a (some (a' / norm)) (x.sd (globals s3) i) := by
        rw [hvel.1, hvel.2.1, hvel.2.2]
        have E : (glob (prepOf x.prep i p2)).a = { withFlags st[i].a (x.prep i p2.velE p2.velA p2.off) with fa := p2.a.fa, fastd := p2.a.fastd } := by
          unfold glob prepOf withFlags
          have f1 := hst.fixed
          obtain ⟨g1, g2, g3, g4, g5, g6⟩ := f1
          simp only [Amp.Elt.mk.injEq, g1, g2, g3, g4, g5, true_and, and_self]
        rw [E]
        rfl
      exact hsame
    · intro hh ho
      have := n5 ((hinup _).1 hh) (by rw [n3] at ho; exact ho)
      unfold Amp.setAmplitude at this
      rw [if_pos (Or.inl rfl)] at this
      have hl : (glob (prepOf x.prep i p2)).a.lines.length = st[i].a.lines.length := by
        show p2.a.lines.length = _
        rw [hst.fixed.lines]
      simp only [Res.ok.injEq] at this
      rw [← this]
      simp only [hl, and_self]
    · intro hh y hy
      have hpp := n6 (fun k => hh ((hinup _).2 k))
      have hfs : p'.a.fastd = p2.a.fastd := by rw [hpp]; rfl
      rw [hfs, k5] at hy
      exact setNone_fastd k4 y hy
    · have hnom : (glob (prepOf x.prep i p2)).a.nominal = st[i].a.nominal := hst.fixed.nominal
      by_cases hin : InUpTo idx (globals s3) pos
      · by_cases ho : (glob (prepOf x.prep i p2)).a.outside = true
        · exact ⟨a, _, p'.a, none, none, k3, hnom, Or.inl rfl, n5 hin ho, rfl⟩
        · have hin' : InUpTo idx (globals s3) (pos + 1) := by
            intro q j pj hq hj hpj
            by_cases hqp : q < pos
            · exact hin q j pj hqp hj hpj
            · have : q = pos := by omega
              subst this
              rw [hi] at hj; cases hj
              rw [globals_glob, m2] at hpj
              cases hpj
              simpa using ho
          obtain ⟨a', e', s', q1, q2, q3, q4⟩ := n4 hin'
          rw [Nat.zero_add] at q1
          exact ⟨a', _, e', _, _, q1, hnom, Or.inr rfl, q2, by rw [q4]⟩
      · have hpp := n6 hin
        refine ⟨a, p1.a, e, _, _, k3, d2.fixed.nominal, Or.inr rfl, k4, ?_⟩
        rw [hpp]
        show p2.a.fa = e.fa
        rw [k5]

end Lbfgs
end Amazed
