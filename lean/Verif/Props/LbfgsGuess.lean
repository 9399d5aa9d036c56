import Verif.Props.LbfgsFit

set_option linter.unusedVariables false
set_option linter.unusedSectionVars false

/-! # C149: initial guess of the non-linear fit, coefficients of the polynomial -/

namespace Amazed
namespace Lbfgs

open Amp (LType)

variable {K : Type} [Field K] [LinearOrder K] [IsStrictOrderedRing K]

/-- The coefficients of the polynomial are read in the order of the degrees, at its position; the normalisation does not change. -/
theorem C148_unpackPoly {c : Cfg K} {l : Lay} {pc q : Polynom.Norm K} {x : List K} (h : unpackPoly c l pc x = .ok q) :
    (c.polyFit = false → q = pc) ∧
    (c.polyFit = true → ∃ k : Nat, l.poly = some k ∧ x[k]? = some q.a0 ∧ x[k + 1]? = some q.a1 ∧ x[k + 2]? = some q.a2 ∧ q.x0red = pc.x0red ∧ q.scale = pc.scale) := by
  unfold unpackPoly at h
  cases hp : c.polyFit with
  | false => rw [hp, if_neg (by simp)] at h; cases h; simp
  | true =>
    rw [hp, if_pos rfl] at h
    refine ⟨fun e => (by cases e), fun _ => ?_⟩
    obtain ⟨a, h1, h⟩ := Res.bind_eq_ok.1 h
    obtain ⟨b, h2, h⟩ := Res.bind_eq_ok.1 h
    obtain ⟨d, h3, h⟩ := Res.bind_eq_ok.1 h
    cases h
    obtain ⟨k, e1, e2⟩ := rd_ok h1
    rw [e1] at h2 h3
    obtain ⟨k2, f1, f2⟩ := rd_ok h2
    obtain ⟨k3, g1, g2⟩ := rd_ok h3
    simp only [Option.map_some, Option.some.injEq] at f1 g1
    subst f1 g1
    exact ⟨k, e1, e2, f2, g2, rfl, rfl⟩

theorem put3_self {k : Nat} {x y z : Cell K} {v v' : List (Cell K)} (h : put3 (some k) x y z v = .ok v') : v'[k]? = some x ∧ v'[k + 1]? = some y ∧ v'[k + 2]? = some z := by
  unfold put3 at h
  obtain ⟨v1, h1, h⟩ := Res.bind_eq_ok.1 h
  obtain ⟨v2, h2, h⟩ := Res.bind_eq_ok.1 h
  simp only [Option.map_some] at h2 h
  refine ⟨?_, ?_, put_self h⟩
  · rw [put_other h k (by simp), put_other h2 k (by simp), put_self h1]
  · rw [put_other h (k + 1) (by simp), put_self h2]

theorem ampGuess_val (norm : K) (st : List (P K)) : ∀ (idx : List Nat) (k : Nat) (v v' : List (Cell K)), ampGuess norm st idx k v = .ok v' →
    (∀ j, j < k → v'[j]? = v[j]?) ∧
    ∀ (pos i : Nat), idx[pos]? = some i → ∃ p a, st[i]? = some p ∧ Amp.elementAmplitude p.a = .ok (some a) ∧ v'[k + pos]? = some (.val (a * norm)) := by
  intro idx
  induction idx with
  | nil => intro k v v' h; unfold ampGuess at h; cases h; exact ⟨fun _ _ => rfl, by simp⟩
  | cons i l ih =>
    intro k v v' h
    unfold ampGuess at h
    obtain ⟨p, hp, h⟩ := Res.bind_eq_ok.1 h
    obtain ⟨a, ha, h⟩ := Res.bind_eq_ok.1 h
    cases a with
    | none => cases h
    | some a =>
      simp only at h
      obtain ⟨v1, h1, h⟩ := Res.bind_eq_ok.1 h
      obtain ⟨g1, g2⟩ := ih (k + 1) _ _ h
      refine ⟨fun j hj => ?_, ?_⟩
      · rw [g1 j (by omega), put_other h1 j (by simp; omega)]
      · intro pos j hj
        cases pos with
        | zero =>
          simp at hj; subst hj
          exact ⟨p, a, Res.at_eq_ok.1 hp, ha, by rw [Nat.add_zero, g1 k (by omega), put_self h1]⟩
        | succ q =>
          rw [List.getElem?_cons_succ] at hj
          obtain ⟨p', a', e1, e2, e3⟩ := g2 q j hj
          have : k + (q + 1) = k + 1 + q := by omega
          exact ⟨p', a', e1, e2, by rw [this]; exact e3⟩

theorem poly_scale (p : Polynom.Poly K) (norm w : K) : (⟨p.a0 * norm, p.a1 * norm, p.a2 * norm⟩ : Polynom.Poly K).value w = norm * p.value w := by
  unfold Polynom.Poly.value
  ring

/-- **C149, guess** The point the minimiser starts from (also the result when it fails), in its units: the amplitude of each element after the linear fit, the initial velocities of the configuration, no offset, and the
polynomial of the first element; the coefficients of the polynomial are not bounded. -/
theorem C149_guess {c : Cfg K} {norm : K} {pc : Polynom.Norm K} {idx : List Nat} {types : List LType} {pb : (List (Cell K) × List (Cell K)) × List (Cell K)} {st : List (P K)}
    (hne : types ≠ []) (hall : ∀ t ∈ types, t ≠ .all) (hty : types.length = idx.length) (hp : problem c (layout c types) norm pc idx st = .ok pb) :
    (∀ (pos i : Nat), idx[pos]? = some i → ∃ p a, st[i]? = some p ∧ Amp.elementAmplitude p.a = .ok (some a) ∧ pb.2[pos]? = some (.val (a * norm))) ∧
    (c.velFit = true → ((layout c types).type ≠ .emission → ∃ k : Nat, (layout c types).velA = some k ∧ pb.2[k]? = some (.val (c.iniA / c.maxE))) ∧
      ((layout c types).type ≠ .absorption → ∃ k : Nat, (layout c types).velE = some k ∧ pb.2[k]? = some (.val (c.iniE / c.maxE)))) ∧
    (c.offFit = true → ∃ k : Nat, (layout c types).off = some k ∧ pb.2[k]? = some (.val 0)) ∧
    (c.polyFit = true → ∃ (k i : Nat) (p : P K) (q : Polynom.Norm K), (layout c types).poly = some k ∧ idx[0]? = some i ∧ st[i]? = some p ∧
      pb.2[k]? = some (.val q.a0) ∧ pb.2[k + 1]? = some (.val q.a1) ∧ pb.2[k + 2]? = some (.val q.a2) ∧ q.x0red = pc.x0red ∧ q.scale = pc.scale ∧
      (pc.scale ≠ 0 → ∀ w, q.value w = .ok (norm * p.poly.value w)) ∧
      (∀ j, j < 3 → pb.1.1[k + j]? = some .neg ∧ pb.1.2[k + j]? = some .pos)) := by
  classical
  unfold problem at hp
  obtain ⟨b, hb, hp⟩ := Res.bind_eq_ok.1 hp
  obtain ⟨g1, h1, hp⟩ := Res.bind_eq_ok.1 hp
  obtain ⟨g2, h2, hp⟩ := Res.bind_eq_ok.1 hp
  obtain ⟨g3, h3, hp⟩ := Res.bind_eq_ok.1 hp
  obtain ⟨g4, h4, hp⟩ := Res.bind_eq_ok.1 hp
  cases hp
  obtain ⟨l, v, extra, hlay, hv, he, hn, L1, L2, L3, L4, L5⟩ := C147_layout c hne hall
  rw [hlay] at h2 h3 h4 hb ⊢
  rw [hty] at L1 L2 L3 L4 L5
  obtain ⟨-, A⟩ := ampGuess_val norm st _ _ _ _ h1
  -- polynomial
  have Q : (∀ j, j < idx.length → g2[j]? = g1[j]?) ∧ (c.polyFit = true → ∃ (i : Nat) (p : P K) (q : Polynom.Norm K), idx[0]? = some i ∧ st[i]? = some p ∧
      q = pc.setCoeffs ⟨p.poly.a0 * norm, p.poly.a1 * norm, p.poly.a2 * norm⟩ ∧ ∃ k : Nat, l.poly = some k ∧ g2[k]? = some (.val q.a0) ∧ g2[k + 1]? = some (.val q.a1) ∧ g2[k + 2]? = some (.val q.a2)) := by
    unfold polyGuess at h2
    cases hpf : c.polyFit with
    | false => rw [hpf, if_pos rfl] at h2; cases h2; exact ⟨fun _ _ => rfl, fun e => by cases e⟩
    | true =>
      rw [hpf, if_neg (by simp)] at h2
      obtain ⟨i, k1, h2⟩ := Res.bind_eq_ok.1 h2
      obtain ⟨p, k2, h2⟩ := Res.bind_eq_ok.1 h2
      rw [L5 hpf] at h2
      refine ⟨fun j hj => put3_other h2 j (by omega), fun _ => ⟨i, p, _, Res.at_eq_ok.1 k1, Res.at_eq_ok.1 k2, rfl, _, L5 hpf, put3_self h2⟩⟩
  obtain ⟨Q1, Q2⟩ := Q
  -- velocities
  have V : (∀ j, j < idx.length ∨ idx.length + v ≤ j → g3[j]? = g2[j]?) ∧ (c.velFit = true → (l.type ≠ .emission → ∃ k : Nat, l.velA = some k ∧ k < idx.length + v ∧ g3[k]? = some (.val (c.iniA / c.maxE))) ∧
      (l.type ≠ .absorption → ∃ k : Nat, l.velE = some k ∧ k < idx.length + v ∧ g3[k]? = some (.val (c.iniE / c.maxE)))) := by
    unfold velGuess at h3
    by_cases hvf : c.velFit = false
    · rw [if_pos hvf] at h3; cases h3
      exact ⟨fun _ _ => rfl, fun k => (by rw [hvf] at k; cases k)⟩
    · rw [if_neg hvf] at h3
      rw [Bool.not_eq_false] at hvf
      by_cases hz : c.maxE = 0
      · rw [if_pos hz] at h3; cases h3
      rw [if_neg hz] at h3
      obtain ⟨gA, q1, q2⟩ := Res.bind_eq_ok.1 h3
      rw [if_pos hvf] at hv
      by_cases hm : Mixed types
      · obtain ⟨t1, t2, t3⟩ := L1 hvf hm
        rw [if_pos hm] at hv
        rw [t1, t2] at q1
        rw [t1, t3] at q2
        rw [if_neg (by decide)] at q1 q2
        refine ⟨fun j hj => ?_, fun _ => ⟨fun _ => ⟨_, t2, by omega, ?_⟩, fun _ => ⟨_, t3, by omega, put_self q2⟩⟩⟩
        · rw [put_other q2 j (by simp; omega), put_other q1 j (by simp; omega)]
        · rw [put_other q2 _ (by simp), put_self q1]
      · rw [if_neg hm] at hv
        have hhead : types.headD .all = .absorption ∨ types.headD .all = .emission := by
          cases types with
          | nil => exact absurd rfl hne
          | cons t ts =>
            have := hall t (by simp)
            cases t <;> simp_all
        rcases hhead with hh | hh
        · obtain ⟨t1, t2⟩ := L2 hvf hm hh
          rw [t1, t2, if_neg (by decide)] at q1
          rw [t1, if_pos rfl] at q2
          cases q2
          exact ⟨fun j hj => put_other q1 j (by simp; omega), fun _ => ⟨fun _ => ⟨_, t2, by omega, put_self q1⟩, fun k => absurd t1 k⟩⟩
        · obtain ⟨t1, t2⟩ := L3 hvf hm hh
          rw [t1, if_pos rfl] at q1
          cases q1
          rw [t1, t2, if_neg (by decide)] at q2
          exact ⟨fun j hj => put_other q2 j (by simp; omega), fun _ => ⟨fun k => absurd t1 k, fun _ => ⟨_, t2, by omega, put_self q2⟩⟩⟩
  obtain ⟨V1, V2⟩ := V
  -- offset
  have O : (∀ j, (c.offFit = true → j ≠ idx.length + v + extra) → g4[j]? = g3[j]?) ∧ (c.offFit = true → g4[idx.length + v + extra]? = some (.val 0)) := by
    unfold offGuess at h4
    cases hof : c.offFit with
    | false => rw [hof, if_pos rfl] at h4; cases h4; exact ⟨fun _ _ => rfl, fun e => by cases e⟩
    | true =>
      rw [hof, if_neg (by simp), L4 hof] at h4
      exact ⟨fun j hj => put_other h4 j (by have := hj rfl; simp; omega), fun _ => put_self h4⟩
  obtain ⟨O1, O2⟩ := O
  refine ⟨?_, ?_, ?_, ?_⟩
  · intro pos i hi
    obtain ⟨p, a, e1, e2, e3⟩ := A pos i hi
    have hlt : pos < idx.length := (List.getElem?_eq_some_iff.1 hi).1
    rw [Nat.zero_add] at e3
    exact ⟨p, a, e1, e2, by show g4[pos]? = _; rw [O1 pos (fun _ => by omega), V1 pos (Or.inl hlt), Q1 pos hlt, e3]⟩
  · intro k
    obtain ⟨w1, w2⟩ := V2 k
    refine ⟨fun hh => ?_, fun hh => ?_⟩
    · obtain ⟨j, e1, e2, e3⟩ := w1 hh
      exact ⟨j, e1, by show g4[j]? = _; rw [O1 j (fun _ => by omega), e3]⟩
    · obtain ⟨j, e1, e2, e3⟩ := w2 hh
      exact ⟨j, e1, by show g4[j]? = _; rw [O1 j (fun _ => by omega), e3]⟩
  · intro k
    exact ⟨_, L4 k, O2 k⟩
  · intro k
    obtain ⟨i, p, q, e1, e2, e3, m, e4, e5, e6, e7⟩ := Q2 k
    have hm := L5 k
    rw [e4] at hm
    simp only [Option.some.injEq] at hm
    have tr : ∀ j, m ≤ j → g4[j]? = g2[j]? := by
      intro j hj
      rw [O1 j (fun ho => by rw [if_pos ho] at hm; omega), V1 j (Or.inr (by omega))]
    refine ⟨m, i, p, q, e4, e1, e2, ?_, ?_, ?_, by rw [e3]; rfl, by rw [e3]; rfl, ?_, ?_⟩
    · show g4[m]? = _; rw [tr m (by omega), e5]
    · show g4[m + 1]? = _; rw [tr _ (by omega), e6]
    · show g4[m + 2]? = _; rw [tr _ (by omega), e7]
    · intro hs w
      rw [e3, (Polynom.C88_set_get pc _ hs).2.1 w, poly_scale]
    · unfold bounds at hb
      obtain ⟨b1, _, hb⟩ := Res.bind_eq_ok.1 hb
      obtain ⟨b2, _, hb⟩ := Res.bind_eq_ok.1 hb
      obtain ⟨b3, _, hb⟩ := Res.bind_eq_ok.1 hb
      unfold polyBounds at hb
      rw [if_neg (by rw [k]; simp), e4] at hb
      obtain ⟨lo, q1, hb⟩ := Res.bind_eq_ok.1 hb
      obtain ⟨hi, q2, hb⟩ := Res.bind_eq_ok.1 hb
      cases hb
      obtain ⟨r1, r2, r3⟩ := put3_self q1
      obtain ⟨s1, s2, s3⟩ := put3_self q2
      intro j hj
      match j with
      | 0 => exact ⟨r1, s1⟩
      | 1 => exact ⟨r2, s2⟩
      | 2 => exact ⟨r3, s3⟩

/-- The hypotheses are met: the guess of an emission and an absorption element with velocities, offset and polynomial. -/
example : (match problem { exCfg with velFit := true, offFit := true, polyFit := true } (layout { exCfg with velFit := true, offFit := true, polyFit := true } [.emission, .absorption]) (1 / 2) ⟨0, 0, 0, 0, 1⟩
      [0, 1] [exE "e" .emission 0, exE "a" .absorption 0] with
    | .ok pb => decide (pb.2.length = 8) && pb.2.all (fun c => decide (c ≠ .unset))
    | _ => false) = true := by decide +kernel

/-- **C148, polynomial** The polynomial starts null, in the variable that is −1 at the first sample of the supports and 1 at the last one. -/
theorem C148_polyInit {c : Cfg K} {s : Spc K} {xs : List Nat} {q : Polynom.Norm K} (hp : c.polyFit = true) (h : polyInit c s xs = .ok q) :
    q.a0 = 0 ∧ q.a1 = 0 ∧ q.a2 = 0 ∧ ∃ (i j : Nat) (a b : K), xs.head? = some i ∧ xs.getLast? = some j ∧ s.axis[i]? = some a ∧ s.axis[j]? = some b ∧
      q.scale ≠ 0 ∧ a / q.scale + q.x0red = -1 ∧ b / q.scale + q.x0red = 1 := by
  unfold polyInit at h
  rw [if_pos hp] at h
  obtain ⟨j, h1, h⟩ := Res.bind_eq_ok.1 h
  obtain ⟨b, h2, h⟩ := Res.bind_eq_ok.1 h
  obtain ⟨i, h3, h⟩ := Res.bind_eq_ok.1 h
  obtain ⟨a, h4, h⟩ := Res.bind_eq_ok.1 h
  unfold Polynom.Norm.new at h
  split_ifs at h with hz
  cases h
  have hba : b - a ≠ 0 := fun e => hz (by rw [e, mul_zero])
  refine ⟨rfl, rfl, rfl, i, j, a, b, ?_, ?_, Res.at_eq_ok.1 h4, Res.at_eq_ok.1 h2, hz, ?_, ?_⟩
  · rw [List.head?_eq_getElem?]; exact Res.at_eq_ok.1 h3
  · rw [List.getLast?_eq_getElem?]; exact Res.at_eq_ok.1 h1
  · field_simp; ring
  · field_simp; ring

/-- **C149, start** Before the linear fit each element of the group gets the initial velocity of the configuration for its type, and nothing else changes. -/
theorem C149_start {c : Cfg K} {idx : List Nat} {st st' : List (P K)} (hd : idx.Nodup) (h : each (fun _ p => .ok (velIni c p)) idx 0 st = .ok st') :
    (∀ i, i ∉ idx → st'[i]? = st[i]?) ∧
    ∀ i ∈ idx, ∃ p p', st[i]? = some p ∧ st'[i]? = some p' ∧ p'.a = p.a ∧ p'.cat = p.cat ∧ p'.off = p.off ∧ p'.poly = p.poly ∧
      (p.a.type = .absorption → p'.velA = c.iniA ∧ p'.velE = p.velE) ∧ (p.a.type ≠ .absorption → p'.velE = c.iniE ∧ p'.velA = p.velA) := by
  obtain ⟨_, h1, h2⟩ := each_spec _ _ _ _ hd h
  refine ⟨h2, fun i hi => ?_⟩
  obtain ⟨pos, hpos⟩ := List.mem_iff_getElem?.1 hi
  obtain ⟨p, p', e1, e2, e3⟩ := h1 pos i hpos
  simp only [Res.ok.injEq] at e2
  subst e2
  refine ⟨p, _, e1, e3, ?_⟩
  unfold velIni
  split_ifs with ht
  · simp [ht]
  · simp [ht]

end Lbfgs
end Amazed
