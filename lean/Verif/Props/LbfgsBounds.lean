import Verif.Props.LbfgsResult

set_option linter.unusedVariables false
set_option linter.unusedSectionVars false

/-! # C149, C150: bounds of the non-linear fit -/

namespace Amazed
namespace Lbfgs

open Amp (LType)

variable {K : Type} [Field K] [LinearOrder K] [IsStrictOrderedRing K]

theorem put_self {k : Nat} {c : Cell K} {v v' : List (Cell K)} (h : put (some k) c v = .ok v') : v'[k]? = some c := by
  obtain ⟨j, hj, hl, rfl⟩ := put_eq h
  cases hj
  exact List.getElem?_set_self hl

theorem put_other {i : Option Nat} {c : Cell K} {v v' : List (Cell K)} (h : put i c v = .ok v') (j : Nat) (hj : i ≠ some j) : v'[j]? = v[j]? := by
  obtain ⟨k, rfl, hl, rfl⟩ := put_eq h
  exact List.getElem?_set_ne (fun e => hj (by rw [e]))

theorem put3_other {k : Nat} {x y z : Cell K} {v v' : List (Cell K)} (h : put3 (some k) x y z v = .ok v') (j : Nat) (hj : j < k) : v'[j]? = v[j]? := by
  unfold put3 at h
  obtain ⟨v1, h1, h⟩ := Res.bind_eq_ok.1 h
  obtain ⟨v2, h2, h⟩ := Res.bind_eq_ok.1 h
  rw [put_other h j (by simp; omega), put_other h2 j (by simp; omega), put_other h1 j (by simp; omega)]

theorem ampBounds_val (st : List (P K)) : ∀ (idx : List Nat) (k : Nat) (b b' : List (Cell K) × List (Cell K)), ampBounds st idx k b = .ok b' →
    (∀ j, j < k → b'.1[j]? = b.1[j]? ∧ b'.2[j]? = b.2[j]?) ∧
    ∀ (pos i : Nat), idx[pos]? = some i → ∃ p m, st[i]? = some p ∧ ampMax p.a = .ok m ∧ b'.1[k + pos]? = some (.val 0) ∧ b'.2[k + pos]? = some m := by
  intro idx
  induction idx with
  | nil => intro k b b' h; unfold ampBounds at h; cases h; exact ⟨fun _ _ => ⟨rfl, rfl⟩, by simp⟩
  | cons i l ih =>
    intro k b b' h
    unfold ampBounds at h
    obtain ⟨p, hp, h⟩ := Res.bind_eq_ok.1 h
    obtain ⟨m, hm, h⟩ := Res.bind_eq_ok.1 h
    obtain ⟨lo, h1, h⟩ := Res.bind_eq_ok.1 h
    obtain ⟨hi, h2, h⟩ := Res.bind_eq_ok.1 h
    obtain ⟨g1, g2⟩ := ih (k + 1) _ _ h
    refine ⟨fun j hj => ?_, ?_⟩
    · obtain ⟨e1, e2⟩ := g1 j (by omega)
      rw [e1, e2, put_other h1 j (by simp; omega), put_other h2 j (by simp; omega)]
      exact ⟨rfl, rfl⟩
    · intro pos j hj
      cases pos with
      | zero =>
        simp at hj; subst hj
        obtain ⟨e1, e2⟩ := g1 k (by omega)
        exact ⟨p, m, Res.at_eq_ok.1 hp, hm, by rw [Nat.add_zero, e1, put_self h1], by rw [Nat.add_zero, e2, put_self h2]⟩
      | succ q =>
        rw [List.getElem?_cons_succ] at hj
        obtain ⟨p', m', e1, e2, e3, e4⟩ := g2 q j hj
        have : k + (q + 1) = k + 1 + q := by omega
        exact ⟨p', m', e1, e2, by rw [this]; exact e3, by rw [this]; exact e4⟩

/-- The bounds given to the minimiser: null amplitudes at least, velocities and offset between the two ends of the configuration, in the units of the minimiser. -/
theorem bounds_val {c : Cfg K} {st : List (P K)} {idx : List Nat} {types : List LType} {b : List (Cell K) × List (Cell K)} (hne : types ≠ []) (hall : ∀ t ∈ types, t ≠ .all) (hl : types.length = idx.length)
    (h : bounds c (layout c types) st idx = .ok b) :
    (∀ (pos i : Nat), idx[pos]? = some i → ∃ p m, st[i]? = some p ∧ ampMax p.a = .ok m ∧ b.1[pos]? = some (.val 0) ∧ b.2[pos]? = some m) ∧
    (c.velFit = true → c.maxE ≠ 0 ∧ ((layout c types).type ≠ .emission → ∃ k, (layout c types).velA = some k ∧ b.1[k]? = some (.val (c.minA / c.maxE)) ∧ b.2[k]? = some (.val (c.maxA / c.maxE))) ∧
      ((layout c types).type ≠ .absorption → ∃ k, (layout c types).velE = some k ∧ b.1[k]? = some (.val (c.minE / c.maxE)) ∧ b.2[k]? = some (.val (c.maxE / c.maxE)))) ∧
    (c.offFit = true → c.light ≠ 0 ∧ normOff c ≠ 0 ∧ ∃ k, (layout c types).off = some k ∧ b.1[k]? = some (.val (c.offMin / c.light / normOff c)) ∧ b.2[k]? = some (.val (c.offMax / c.light / normOff c))) := by
  classical
  obtain ⟨l, v, extra, hlay, hv, he, hn, L1, L2, L3, L4, L5⟩ := C147_layout c hne hall
  rw [hlay] at h ⊢
  rw [hl] at L1 L2 L3 L4 L5
  unfold bounds at h
  obtain ⟨b1, h1, h⟩ := Res.bind_eq_ok.1 h
  obtain ⟨b2, h2, h⟩ := Res.bind_eq_ok.1 h
  obtain ⟨b3, h3, h⟩ := Res.bind_eq_ok.1 h
  obtain ⟨-, A⟩ := ampBounds_val st _ _ _ _ h1
  -- polynomial
  have P4 : ∀ j, (c.polyFit = true → j < idx.length + v + extra + if c.offFit then 1 else 0) → b.1[j]? = b3.1[j]? ∧ b.2[j]? = b3.2[j]? := by
    intro j hj
    unfold polyBounds at h
    by_cases hp : c.polyFit = false
    · rw [if_pos hp] at h; cases h; exact ⟨rfl, rfl⟩
    · rw [if_neg hp] at h
      rw [Bool.not_eq_false] at hp
      rw [L5 hp] at h
      obtain ⟨lo, q1, h⟩ := Res.bind_eq_ok.1 h
      obtain ⟨hi, q2, h⟩ := Res.bind_eq_ok.1 h
      cases h
      exact ⟨put3_other q1 j (hj hp), put3_other q2 j (hj hp)⟩
  have P3 : (∀ j, j < idx.length + v + extra → b3.1[j]? = b2.1[j]? ∧ b3.2[j]? = b2.2[j]?) ∧
      (c.offFit = true → c.light ≠ 0 ∧ normOff c ≠ 0 ∧ b3.1[idx.length + v + extra]? = some (.val (c.offMin / c.light / normOff c)) ∧ b3.2[idx.length + v + extra]? = some (.val (c.offMax / c.light / normOff c))) := by
    unfold offBounds at h3
    by_cases ho : c.offFit = false
    · rw [if_pos ho] at h3; cases h3
      exact ⟨fun _ _ => ⟨rfl, rfl⟩, fun k => (by rw [ho] at k; cases k)⟩
    · rw [if_neg ho] at h3
      rw [Bool.not_eq_false] at ho
      split_ifs at h3 with hz
      rw [not_or] at hz
      rw [L4 ho] at h3
      obtain ⟨lo, q1, h3⟩ := Res.bind_eq_ok.1 h3
      obtain ⟨hi, q2, h3⟩ := Res.bind_eq_ok.1 h3
      cases h3
      exact ⟨fun j hj => ⟨put_other q1 j (by simp; omega), put_other q2 j (by simp; omega)⟩, fun _ => ⟨hz.1, hz.2, put_self q1, put_self q2⟩⟩
  obtain ⟨P3a, P3b⟩ := P3
  have P2 : (∀ j, j < idx.length → b2.1[j]? = b1.1[j]? ∧ b2.2[j]? = b1.2[j]?) ∧
      (c.velFit = true → c.maxE ≠ 0 ∧ (l.type ≠ .emission → ∃ k, l.velA = some k ∧ k < idx.length + v ∧ b2.1[k]? = some (.val (c.minA / c.maxE)) ∧ b2.2[k]? = some (.val (c.maxA / c.maxE))) ∧
      (l.type ≠ .absorption → ∃ k, l.velE = some k ∧ k < idx.length + v ∧ b2.1[k]? = some (.val (c.minE / c.maxE)) ∧ b2.2[k]? = some (.val (c.maxE / c.maxE)))) := by
    unfold velBounds at h2
    by_cases hvf : c.velFit = false
    · rw [if_pos hvf] at h2; cases h2
      exact ⟨fun _ _ => ⟨rfl, rfl⟩, fun k => (by rw [hvf] at k; cases k)⟩
    · rw [if_neg hvf] at h2
      rw [Bool.not_eq_false] at hvf
      by_cases hz : c.maxE = 0
      · rw [if_pos hz] at h2; cases h2
      rw [if_neg hz] at h2
      obtain ⟨bA, q1, q2⟩ := Res.bind_eq_ok.1 h2
      rw [if_pos hvf] at hv
      by_cases hm : Mixed types
      · obtain ⟨t1, t2, t3⟩ := L1 hvf hm
        rw [if_pos hm] at hv
        rw [t1, t2] at q1
        rw [t1, t3] at q2
        rw [if_neg (by decide)] at q1 q2
        obtain ⟨lo, r1, q1⟩ := Res.bind_eq_ok.1 q1
        obtain ⟨hi, r2, q1⟩ := Res.bind_eq_ok.1 q1
        cases q1
        obtain ⟨lo', r3, q2⟩ := Res.bind_eq_ok.1 q2
        obtain ⟨hi', r4, q2⟩ := Res.bind_eq_ok.1 q2
        cases q2
        refine ⟨fun j hj => ⟨?_, ?_⟩, fun _ => ⟨hz, fun _ => ⟨_, t2, by omega, ?_, ?_⟩, fun _ => ⟨_, t3, by omega, put_self r3, put_self r4⟩⟩⟩
        · show lo'[j]? = _
          rw [put_other r3 j (by simp; omega), put_other r1 j (by simp; omega)]
        · show hi'[j]? = _
          rw [put_other r4 j (by simp; omega), put_other r2 j (by simp; omega)]
        · show lo'[idx.length]? = _
          rw [put_other r3 _ (by simp), put_self r1]
        · show hi'[idx.length]? = _
          rw [put_other r4 _ (by simp), put_self r2]
      · rw [if_neg hm] at hv
        have hhead : types.headD .all = .absorption ∨ types.headD .all = .emission := by
          cases types with
          | nil => exact absurd rfl hne
          | cons t ts =>
            have := hall t (by simp)
            cases t <;> simp_all
        rcases hhead with hh | hh
        · obtain ⟨t1, t2⟩ := L2 hvf hm hh
          rw [t1, t2, if_neg (by decide)] at q1
          rw [t1, if_pos rfl] at q2
          cases q2
          obtain ⟨lo, r1, q1⟩ := Res.bind_eq_ok.1 q1
          obtain ⟨hi, r2, q1⟩ := Res.bind_eq_ok.1 q1
          cases q1
          exact ⟨fun j hj => ⟨put_other r1 j (by simp; omega), put_other r2 j (by simp; omega)⟩, fun _ => ⟨hz, fun _ => ⟨_, t2, by omega, put_self r1, put_self r2⟩, fun k => absurd t1 k⟩⟩
        · obtain ⟨t1, t2⟩ := L3 hvf hm hh
          rw [t1, if_pos rfl] at q1
          cases q1
          rw [t1, t2, if_neg (by decide)] at q2
          obtain ⟨lo, r1, q2⟩ := Res.bind_eq_ok.1 q2
          obtain ⟨hi, r2, q2⟩ := Res.bind_eq_ok.1 q2
          cases q2
          exact ⟨fun j hj => ⟨put_other r1 j (by simp; omega), put_other r2 j (by simp; omega)⟩, fun _ => ⟨hz, fun k => absurd t1 k, fun _ => ⟨_, t2, by omega, put_self r1, put_self r2⟩⟩⟩
  obtain ⟨P2a, P2b⟩ := P2
  have lift : ∀ j, j < idx.length + v → b.1[j]? = b2.1[j]? ∧ b.2[j]? = b2.2[j]? := by
    intro j hj
    obtain ⟨x1, x2⟩ := P4 j (fun _ => by omega)
    obtain ⟨y1, y2⟩ := P3a j (by omega)
    exact ⟨x1.trans y1, x2.trans y2⟩
  refine ⟨?_, ?_, ?_⟩
  · intro pos i hi
    obtain ⟨p, m, g1, g2, g3, g4⟩ := A pos i hi
    have hlt : pos < idx.length := (List.getElem?_eq_some_iff.1 hi).1
    rw [Nat.zero_add] at g3 g4
    obtain ⟨x1, x2⟩ := lift pos (by omega)
    obtain ⟨y1, y2⟩ := P2a pos hlt
    exact ⟨p, m, g1, g2, by rw [x1, y1, g3], by rw [x2, y2, g4]⟩
  · intro k
    obtain ⟨g0, g1, g2⟩ := P2b k
    refine ⟨g0, fun hh => ?_, fun hh => ?_⟩
    · obtain ⟨j, e1, e2, e3, e4⟩ := g1 hh
      obtain ⟨x1, x2⟩ := lift j e2
      exact ⟨j, e1, by rw [x1, e3], by rw [x2, e4]⟩
    · obtain ⟨j, e1, e2, e3, e4⟩ := g2 hh
      obtain ⟨x1, x2⟩ := lift j e2
      exact ⟨j, e1, by rw [x1, e3], by rw [x2, e4]⟩
  · intro k
    obtain ⟨g0, g1, g2, g3⟩ := P3b k
    obtain ⟨x1, x2⟩ := P4 (idx.length + v + extra) (fun _ => by rw [if_pos k]; omega)
    exact ⟨g0, g1, _, L4 k, by rw [x1, g2], by rw [x2, g3]⟩

/-- A point within the bounds given to the minimiser. -/
def InBox (b : List (Cell K) × List (Cell K)) (r : List K) : Prop :=
  ∀ (j : Nat) v, r[j]? = some v → (∀ a, b.1[j]? = some (.val a) → a ≤ v) ∧ ∀ a, b.2[j]? = some (.val a) → v ≤ a

theorem rd_ok {r : List K} {i : Option Nat} {v : K} (h : rd r i = .ok v) : ∃ k, i = some k ∧ r[k]? = some v := by
  cases i with
  | none => cases h
  | some k => exact ⟨k, rfl, Res.at_eq_ok.1 h⟩

/-- The new offset: wavelengths are multiplied by `1 + d`. -/
theorem shift_eq {c : Cfg K} (hl : c.light ≠ 0) (d o : K) : 1 + shift c d o / c.light = (1 + o / c.light) * (1 + d) := by
  unfold shift
  field_simp
  ring

/-- **C149** When the minimiser returns a point within the bounds it was given, the stored velocity of each element of the group is between the ends of the configuration, the stored offset of each line is that of the catalogue
times a common factor `1 + d` with `d` between the ends of the configuration, and the amplitudes are not negative. -/
theorem C149_bounded {c : Cfg K} {x : Ext K} {s : Spc K} {norm : K} {pc : Polynom.Norm K} {xs idx : List Nat} {types : List LType} {pb : (List (Cell K) × List (Cell K)) × List (Cell K)} {st st' : List (P K)} {r : List K}
    (hd : idx.Nodup) (hne : idx ≠ []) (hty : types.length = idx.length) (hall : ∀ t ∈ types, t ≠ .all) (ht : ∀ i ∈ idx, ∀ p, st[i]? = some p → TypeOk (layout c types) p)
    (hp : problem c (layout c types) norm pc idx st = .ok pb) (h : solve c x (layout c types) s norm pc xs idx pb st = .ok st') (hr : x.best = some r) (hbox : InBox pb.1 r)
    (hE : 0 < c.maxE) (hnorm : 0 < norm) :
    ∀ (pos i : Nat), idx[pos]? = some i → ∃ p p', st[i]? = some p ∧ st'[i]? = some p' ∧
      (c.velFit = true → p.a.isEmission = true → c.minE ≤ p'.velE ∧ p'.velE ≤ c.maxE) ∧
      (c.velFit = true → p.a.isEmission = false → c.minA ≤ p'.velA ∧ p'.velA ≤ c.maxA) ∧
      (c.offFit = true → 0 < c.light → 0 < c.offMax → ∃ d, c.offMin ≤ d * c.light ∧ d * c.light ≤ c.offMax ∧ p'.off.length = p.cat.length ∧
        ∀ (k : Nat) o, p.cat[k]? = some o → ∃ o', p'.off[k]? = some o' ∧ 1 + o' / c.light = (1 + o / c.light) * (1 + d)) ∧
      ((∀ n ∈ p.a.nominal, 0 ≤ n) → ∀ y, some y ∈ p'.a.fa → 0 ≤ y) := by
  have hne' : types ≠ [] := by rintro rfl; simp at hty; exact hne (List.length_eq_zero_iff.1 hty.symm)
  obtain ⟨guess, -, -, -, H⟩ := C149_result hd ht h
  unfold problem at hp
  obtain ⟨b, hb, hp⟩ := Res.bind_eq_ok.1 hp
  obtain ⟨g1, -, hp⟩ := Res.bind_eq_ok.1 hp
  obtain ⟨g2, -, hp⟩ := Res.bind_eq_ok.1 hp
  obtain ⟨g3, -, hp⟩ := Res.bind_eq_ok.1 hp
  obtain ⟨g4, -, hp⟩ := Res.bind_eq_ok.1 hp
  cases hp
  obtain ⟨B1, B2, B3⟩ := bounds_val hne' hall hty hb
  rw [hr] at H
  simp only [Option.getD_some] at H
  intro pos i hi
  obtain ⟨p, p', k1, k2, k3, -, -, -, a, e0, e, o, sd, kk1, kk2, kk3, kk4, kk5⟩ := H pos i hi
  have hT := ht i (List.mem_of_getElem? hi) p k1
  refine ⟨p, p', k1, k2, ?_, ?_, ?_, ?_⟩
  · intro hv hem
    obtain ⟨z, -, b2⟩ := B2 hv
    have hna : ¬ (if (layout c types).type = .all then p.a.type else (layout c types).type) = .absorption := fun e => by rw [hT.1 e] at hem; cases hem
    obtain ⟨v, m1, m2, -⟩ := k3.stored.velE hv hna
    have hlt : (layout c types).type ≠ .absorption := by
      intro e; rw [e] at hna; simp at hna
    obtain ⟨k, n1, n2, n3⟩ := b2 hlt
    obtain ⟨k', q1, q2⟩ := rd_ok m1
    rw [n1] at q1; cases q1
    obtain ⟨w1, w2⟩ := hbox k v q2
    have w1 := w1 _ n2
    have w2 := w2 _ n3
    rw [m2]
    refine ⟨?_, ?_⟩
    · rwa [div_le_iff₀ hE] at w1
    · rwa [le_div_iff₀ hE] at w2
  · intro hv hem
    obtain ⟨z, b2, -⟩ := B2 hv
    have hna := hT.2 hem
    obtain ⟨v, m1, m2, -⟩ := k3.stored.velA hv hna
    have hlt : (layout c types).type ≠ .emission := by
      intro e; rw [e] at hna; simp at hna
    obtain ⟨k, n1, n2, n3⟩ := b2 hlt
    obtain ⟨k', q1, q2⟩ := rd_ok m1
    rw [n1] at q1; cases q1
    obtain ⟨w1, w2⟩ := hbox k v q2
    have w1 := w1 _ n2
    have w2 := w2 _ n3
    rw [m2]
    refine ⟨?_, ?_⟩
    · rwa [div_le_iff₀ hE] at w1
    · rwa [le_div_iff₀ hE] at w2
  · intro ho hL hM
    obtain ⟨z, y, k, n1, n2, n3⟩ := B3 ho
    obtain ⟨-, d, m1, m2⟩ := k3.stored.off ho
    obtain ⟨k', q1, q2⟩ := rd_ok m1
    rw [n1] at q1; cases q1
    obtain ⟨w1, w2⟩ := hbox k d q2
    have w1 := w1 _ n2
    have w2 := w2 _ n3
    have hN : 0 < normOff c := div_pos hM hL
    refine ⟨d * normOff c, ?_, ?_, by rw [m2, List.length_map], ?_⟩
    · rwa [div_le_iff₀ hN, div_le_iff₀ hL] at w1
    · rwa [le_div_iff₀ hN, le_div_iff₀ hL] at w2
    · intro j o hj
      refine ⟨_, by rw [m2, List.getElem?_map, hj]; rfl, shift_eq z _ _⟩
  · obtain ⟨p0, m, e1, e2, e3, e4⟩ := B1 pos i hi
    intro hn y hy
    have ha := (hbox pos a kk1).1 0 e3
    rw [kk5] at hy
    refine (SvdFit.setAmplitude_spec kk4).2 ?_ (by rw [kk2]; exact hn) y hy
    intro a' ha'
    rcases kk3 with rfl | rfl
    · cases ha'
    · cases ha'; exact div_nonneg ha hnorm.le

end Lbfgs
end Amazed
