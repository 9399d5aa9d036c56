import Verif.Model.Lbfgs
import Mathlib.Data.List.TakeWhile

set_option linter.unusedVariables false
set_option linter.unusedSectionVars false

/-! # C147: parameters of the non-linear fit of a group of elements -/

namespace Amazed
namespace Lbfgs

open Amp (LType)

variable {K : Type} [Field K] [LinearOrder K] [IsStrictOrderedRing K]

/-! ## Positions -/

/-- The elements after the first one whose type is not the type of the first element of the group. -/
def gap (types : List LType) : Nat := (types.dropWhile fun t => decide (t = types.headD .all)).length - 1

/-- The types in a group are not all the same. -/
def Mixed (types : List LType) : Prop := ∃ t ∈ types, t ≠ types.headD .all

theorem scan_all (v : Nat) : ∀ (ts : List LType) (l : Lay), l.type = .all → l.velA = some v → l.velE = some (v + 1) → (∀ t ∈ ts, t ≠ .all) →
    scan v ts l = { l with nddl := l.nddl + ts.length, idx := l.idx + ts.length } := by
  intro ts
  induction ts with
  | nil => intro l _ _ _ _; rfl
  | cons t ts ih =>
    intro l h1 h2 h3 h4
    unfold scan
    have hne : l.type ≠ t := by rw [h1]; exact fun e => h4 t (by simp) e.symm
    rw [if_pos hne, ih _ rfl rfl rfl (fun u hu => h4 u (by simp [hu]))]
    cases l
    simp only [List.length_cons] at *
    subst h1 h2 h3
    simp only [Lay.mk.injEq, true_and, and_true]
    omega

theorem scan_same (v : Nat) (l : Lay) : ∀ (ts us : List LType), (∀ t ∈ ts, t = l.type) → scan v (ts ++ us) l = scan v us l := by
  intro ts
  induction ts with
  | nil => intro us _; rfl
  | cons t ts ih =>
    intro us h
    rw [List.cons_append, scan, if_neg (by rw [not_not]; exact (h t (by simp)).symm)]
    exact ih us fun u hu => h u (by simp [hu])

theorem split_types (types : List LType) : (types = types.takeWhile (fun t => decide (t = types.headD .all)) ++ types.dropWhile (fun t => decide (t = types.headD .all))) ∧
    (∀ t ∈ types.takeWhile (fun t => decide (t = types.headD .all)), t = types.headD .all) := by
  refine ⟨(List.takeWhile_append_dropWhile).symm, ?_⟩
  intro t ht
  have := List.mem_takeWhile_imp ht
  simpa using this

theorem mixed_iff (types : List LType) : Mixed types ↔ types.dropWhile (fun t => decide (t = types.headD .all)) ≠ [] := by
  unfold Mixed
  rw [ne_eq, List.dropWhile_eq_nil_iff]
  simp

/-- The velocities in the vector. -/
theorem layVel_spec {types : List LType} (hne : types ≠ []) (hall : ∀ t ∈ types, t ≠ .all) :
    (¬ Mixed types → layVel true types =
      ⟨types.headD .all, types.length + 1, types.length + 1, if types.headD .all = .absorption then some types.length else none,
        if types.headD .all = .absorption then none else some types.length, none, none⟩) ∧
    (Mixed types → layVel true types =
      ⟨.all, types.length + 2 + gap types, types.length + 2 + gap types, some types.length, some (types.length + 1), none, none⟩) := by
  obtain ⟨h1, h2⟩ := split_types types
  have hhead : types.headD .all ≠ .all := by
    cases types with
    | nil => exact absurd rfl hne
    | cons t ts => exact hall t (by simp)
  unfold layVel
  simp only [if_true]
  constructor
  · intro hm
    rw [mixed_iff, not_not] at hm
    rw [hm, List.append_nil] at h1
    have h3 : ∀ t ∈ types, t = types.headD .all := by intro t ht; rw [h1] at ht; exact h2 t ht
    rw [← List.append_nil types]
    rw [scan_same]
    · simp [scan]
    · intro t ht; rw [List.append_nil]; exact h3 t ht
  · intro hm
    rw [mixed_iff] at hm
    unfold gap
    set tk := types.takeWhile (fun t => decide (t = types.headD .all)) with htk
    set dk := types.dropWhile (fun t => decide (t = types.headD .all)) with hdk
    conv_lhs => rw [h1]
    cases hd : dk with
    | nil => exact absurd hd hm
    | cons u us =>
      have hu : u ≠ types.headD .all := by
        have := List.head_dropWhile_not (p := fun t => decide (t = types.headD .all)) (l := types) (by rw [← hdk, hd]; simp)
        simp only [← hdk, hd, List.head_cons] at this
        simpa using this
      have hlen : (tk ++ u :: us).length = types.length := by rw [← hd, ← h1]
      have hhd : (tk ++ u :: us).headD .all = types.headD .all := by rw [← hd, ← h1]
      rw [hlen, hhd, scan_same _ _ _ _ (by intro t ht; exact h2 t ht)]
      unfold scan
      rw [if_pos (fun e => hu (Eq.symm e)), scan_all _ _ _ rfl rfl rfl]
      · simp only [Lay.mk.injEq, true_and, and_true, List.length_cons]
        omega
      · intro t ht
        exact hall t (by rw [h1, hd]; simp [ht])

/-- **C147** The parameters: one amplitude per element first, one velocity when all the elements have the same type, two when not, one offset, three coefficients; `extra` positions are
counted besides. -/
theorem C147_layout (c : Cfg K) {types : List LType} (hne : types ≠ []) (hall : ∀ t ∈ types, t ≠ .all) :
    open Classical in
    ∃ l v extra, layout c types = l ∧ v = (if c.velFit then (if Mixed types then 2 else 1) else 0) ∧ extra = (if c.velFit ∧ Mixed types then gap types else 0) ∧
      l.nddl = types.length + v + extra + (if c.offFit then 1 else 0) + (if c.polyFit then 3 else 0) ∧
      (c.velFit = true → Mixed types → l.type = .all ∧ l.velA = some types.length ∧ l.velE = some (types.length + 1)) ∧
      (c.velFit = true → ¬ Mixed types → types.headD .all = .absorption → l.type = .absorption ∧ l.velA = some types.length) ∧
      (c.velFit = true → ¬ Mixed types → types.headD .all = .emission → l.type = .emission ∧ l.velE = some types.length) ∧
      (c.offFit = true → l.off = some (types.length + v + extra)) ∧
      (c.polyFit = true → l.poly = some (types.length + v + extra + if c.offFit then 1 else 0)) := by
  classical
  obtain ⟨hu, hm⟩ := layVel_spec hne hall
  refine ⟨_, _, _, rfl, rfl, rfl, ?_⟩
  unfold layout layPoly layOff
  by_cases hv : c.velFit = true
  · rw [hv]
    by_cases hmx : Mixed types
    · rw [hm hmx]
      cases c.offFit <;> cases c.polyFit <;> simp [hmx]
    · rw [hu hmx]
      cases c.offFit <;> cases c.polyFit <;> simp [hmx] <;> intro h <;> simp_all
  · rw [Bool.not_eq_true] at hv
    rw [hv]
    unfold layVel
    cases c.offFit <;> cases c.polyFit <;> simp

/-! ## Entries which are set -/

/-- The entries of the vector which are set are those of `S`. -/
def Written (n : Nat) (v : List (Cell K)) (S : Nat → Prop) : Prop := v.length = n ∧ ∀ j, j < n → (v[j]? = some .unset ↔ ¬ S j)

theorem put_eq {i : Option Nat} {c : Cell K} {v v' : List (Cell K)} (h : put i c v = .ok v') : ∃ k, i = some k ∧ k < v.length ∧ v' = v.set k c := by
  unfold put at h
  cases i with
  | none => cases h
  | some k =>
    simp only at h
    split_ifs at h with hk
    cases h
    exact ⟨k, rfl, hk, rfl⟩

theorem Written.put {n : Nat} {i : Option Nat} {c : Cell K} {v v' : List (Cell K)} {S : Nat → Prop} (hw : Written n v S) (h : put i c v = .ok v') (hc : c ≠ .unset) :
    Written n v' (fun j => S j ∨ i = some j) := by
  obtain ⟨k, rfl, hk, rfl⟩ := put_eq h
  refine ⟨by rw [List.length_set]; exact hw.1, ?_⟩
  intro j hj
  rw [List.getElem?_set]
  by_cases hkj : k = j
  · subst hkj
    simp [hk, hc]
  · rw [if_neg hkj, hw.2 j hj]
    simp [hkj]

theorem Written.congr {n : Nat} {v : List (Cell K)} {S T : Nat → Prop} (hw : Written n v S) (h : ∀ j, j < n → (S j ↔ T j)) : Written n v T :=
  ⟨hw.1, fun j hj => by rw [hw.2 j hj, h j hj]⟩

theorem Written.put3 {n : Nat} {i : Option Nat} {x y z : Cell K} {v v' : List (Cell K)} {S : Nat → Prop} (hw : Written n v S) (h : put3 i x y z v = .ok v') (hx : x ≠ .unset) (hy : y ≠ .unset)
    (hz : z ≠ .unset) : Written n v' (fun j => S j ∨ ∃ k, i = some k ∧ k ≤ j ∧ j ≤ k + 2) := by
  unfold Lbfgs.put3 at h
  obtain ⟨v1, h1, h⟩ := Res.bind_eq_ok.1 h
  obtain ⟨v2, h2, h⟩ := Res.bind_eq_ok.1 h
  refine (((hw.put h1 hx).put h2 hy).put h hz).congr ?_
  intro j hj
  obtain ⟨k, rfl, -⟩ := put_eq h1
  simp only [Option.map_some, Option.some.injEq, exists_eq_left']
  constructor
  · rintro (((h | rfl) | rfl) | rfl)
    · exact Or.inl h
    all_goals right; omega
  · rintro (h | h)
    · exact Or.inl (Or.inl (Or.inl h))
    · have : j = k ∨ j = k + 1 ∨ j = k + 2 := by omega
      rcases this with rfl | rfl | rfl <;> simp

theorem written_init (n : Nat) : Written (K := K) n (List.replicate n .unset) (fun _ => False) := by
  refine ⟨by simp, ?_⟩
  intro j hj
  simp [hj]

theorem ampMax_ne {e : Amp.Elt K} {m : Cell K} (h : ampMax e = .ok m) : m ≠ .unset := by
  unfold ampMax at h
  split_ifs at h with h1
  · cases hm : maxNominal e.nominal with
    | none => rw [hm] at h; cases h
    | some q =>
      rw [hm] at h
      simp only at h
      split_ifs at h with h2
      cases h
      simp
  · cases h; simp

theorem ampBounds_written {n : Nat} (st : List (P K)) : ∀ (idx : List Nat) (k : Nat) (b b' : List (Cell K) × List (Cell K)), Written n b.1 (· < k) → Written n b.2 (· < k) → ampBounds st idx k b = .ok b' →
    Written n b'.1 (· < k + idx.length) ∧ Written n b'.2 (· < k + idx.length) := by
  intro idx
  induction idx with
  | nil => intro k b b' h1 h2 h; unfold ampBounds at h; cases h; exact ⟨h1, h2⟩
  | cons i l ih =>
    intro k b b' h1 h2 h
    unfold ampBounds at h
    obtain ⟨p, hp, h⟩ := Res.bind_eq_ok.1 h
    obtain ⟨m, hm, h⟩ := Res.bind_eq_ok.1 h
    obtain ⟨lo, hlo, h⟩ := Res.bind_eq_ok.1 h
    obtain ⟨hi, hhi, h⟩ := Res.bind_eq_ok.1 h
    have e1 := (h1.put hlo (by simp)).congr (T := (· < k + 1)) (by intro j _; simp; omega)
    have e2 := (h2.put hhi (ampMax_ne hm)).congr (T := (· < k + 1)) (by intro j _; simp; omega)
    have := ih (k + 1) (lo, hi) b' e1 e2 h
    rw [List.length_cons, show k + (l.length + 1) = k + 1 + l.length by omega]
    exact this

theorem ampGuess_written {n : Nat} (norm : K) (st : List (P K)) : ∀ (idx : List Nat) (k : Nat) (v v' : List (Cell K)), Written n v (· < k) → ampGuess norm st idx k v = .ok v' →
    Written n v' (· < k + idx.length) := by
  intro idx
  induction idx with
  | nil => intro k v v' h1 h; unfold ampGuess at h; cases h; exact h1
  | cons i l ih =>
    intro k v v' h1 h
    unfold ampGuess at h
    obtain ⟨p, hp, h⟩ := Res.bind_eq_ok.1 h
    obtain ⟨a, ha, h⟩ := Res.bind_eq_ok.1 h
    cases a with
    | none => cases h
    | some a =>
      simp only at h
      obtain ⟨w, hw, h⟩ := Res.bind_eq_ok.1 h
      have e1 := (h1.put hw (by simp)).congr (T := (· < k + 1)) (by intro j _; simp; omega)
      rw [List.length_cons, show k + (l.length + 1) = k + 1 + l.length by omega]
      exact ih (k + 1) w v' e1 h

/-- The positions of the parameters, by name. -/
def Named (c : Cfg K) (l : Lay) (n : Nat) (j : Nat) : Prop :=
  j < n ∨ (c.velFit = true ∧ ((l.type ≠ .emission ∧ l.velA = some j) ∨ (l.type ≠ .absorption ∧ l.velE = some j))) ∨ (c.offFit = true ∧ l.off = some j) ∨
    (c.polyFit = true ∧ ∃ k, l.poly = some k ∧ k ≤ j ∧ j ≤ k + 2)

theorem velPart {n : Nat} {l : Lay} {x y : Cell K} {v v' : List (Cell K)} {S : Nat → Prop} (hw : Written n v S) (hx : x ≠ .unset) (hy : y ≠ .unset)
    (h : ((if l.type = .emission then Res.ok v else put l.velA x v) >>= fun v => (if l.type = .absorption then Res.ok v else put l.velE y v)) = .ok v') :
    Written n v' (fun j => S j ∨ (l.type ≠ .emission ∧ l.velA = some j) ∨ (l.type ≠ .absorption ∧ l.velE = some j)) := by
  obtain ⟨v1, h1, h2⟩ := Res.bind_eq_ok.1 h
  have e1 : Written n v1 (fun j => S j ∨ (l.type ≠ .emission ∧ l.velA = some j)) := by
    by_cases he : l.type = .emission
    · rw [if_pos he] at h1; cases h1
      exact hw.congr (by simp [he])
    · rw [if_neg he] at h1
      exact (hw.put h1 hx).congr (by simp [he])
  by_cases he : l.type = .absorption
  · rw [if_pos he] at h2; cases h2
    exact e1.congr (by simp [he])
  · rw [if_neg he] at h2
    exact (e1.put h2 hy).congr (by simp [he, or_assoc])

theorem velBounds_written {n : Nat} {c : Cfg K} {l : Lay} {b b' : List (Cell K) × List (Cell K)} {S : Nat → Prop} (h1 : Written n b.1 S) (h2 : Written n b.2 S) (h : velBounds c l b = .ok b') :
    Written n b'.1 (fun j => S j ∨ (c.velFit = true ∧ ((l.type ≠ .emission ∧ l.velA = some j) ∨ (l.type ≠ .absorption ∧ l.velE = some j)))) ∧
    Written n b'.2 (fun j => S j ∨ (c.velFit = true ∧ ((l.type ≠ .emission ∧ l.velA = some j) ∨ (l.type ≠ .absorption ∧ l.velE = some j)))) := by
  unfold velBounds at h
  by_cases hv : c.velFit = false
  · rw [if_pos hv] at h; cases h
    exact ⟨h1.congr (by simp [hv]), h2.congr (by simp [hv])⟩
  · rw [if_neg hv] at h
    have hv' : c.velFit = true := by simpa using hv
    by_cases hm : c.maxE = 0
    · rw [if_pos hm] at h; cases h
    · rw [if_neg hm] at h
      obtain ⟨b1, e1, e2⟩ := Res.bind_eq_ok.1 h
      have key : (((if l.type = .emission then Res.ok b.1 else put l.velA (.val (c.minA / c.maxE)) b.1) >>= fun v => (if l.type = .absorption then Res.ok v else put l.velE (.val (c.minE / c.maxE)) v)) = .ok b'.1) ∧
          (((if l.type = .emission then Res.ok b.2 else put l.velA (.val (c.maxA / c.maxE)) b.2) >>= fun v => (if l.type = .absorption then Res.ok v else put l.velE (.val (c.maxE / c.maxE)) v)) = .ok b'.2) := by
        by_cases he : l.type = .emission
        · rw [if_pos he] at e1; cases e1
          rw [if_neg (by rw [he]; simp)] at e2
          obtain ⟨lo, f1, e2⟩ := Res.bind_eq_ok.1 e2
          obtain ⟨hi, f2, e2⟩ := Res.bind_eq_ok.1 e2
          cases e2
          rw [if_pos he, if_pos he, Res.bind_ok, Res.bind_ok, if_neg (by rw [he]; simp), if_neg (by rw [he]; simp)]
          exact ⟨f1, f2⟩
        · rw [if_neg he] at e1
          obtain ⟨lo, f1, e1⟩ := Res.bind_eq_ok.1 e1
          obtain ⟨hi, f2, e1⟩ := Res.bind_eq_ok.1 e1
          cases e1
          rw [if_neg he, if_neg he, f1, f2, Res.bind_ok, Res.bind_ok]
          by_cases ha : l.type = .absorption
          · rw [if_pos ha] at e2; cases e2
            rw [if_pos ha, if_pos ha]
            exact ⟨rfl, rfl⟩
          · rw [if_neg ha] at e2
            obtain ⟨lo', g1, e2⟩ := Res.bind_eq_ok.1 e2
            obtain ⟨hi', g2, e2⟩ := Res.bind_eq_ok.1 e2
            cases e2
            rw [if_neg ha, if_neg ha]
            exact ⟨g1, g2⟩
      exact ⟨(velPart h1 (by simp) (by simp) key.1).congr (by simp [hv']), (velPart h2 (by simp) (by simp) key.2).congr (by simp [hv'])⟩

theorem velGuess_written {n : Nat} {c : Cfg K} {l : Lay} {v v' : List (Cell K)} {S : Nat → Prop} (h1 : Written n v S) (h : velGuess c l v = .ok v') :
    Written n v' (fun j => S j ∨ (c.velFit = true ∧ ((l.type ≠ .emission ∧ l.velA = some j) ∨ (l.type ≠ .absorption ∧ l.velE = some j)))) := by
  unfold velGuess at h
  by_cases hv : c.velFit = false
  · rw [if_pos hv] at h; cases h
    exact h1.congr (by simp [hv])
  · rw [if_neg hv] at h
    have hv' : c.velFit = true := by simpa using hv
    by_cases hm : c.maxE = 0
    · rw [if_pos hm] at h; cases h
    · rw [if_neg hm] at h
      exact (velPart h1 (by simp) (by simp) h).congr (by simp [hv'])

theorem offBounds_written {n : Nat} {c : Cfg K} {l : Lay} {b b' : List (Cell K) × List (Cell K)} {S : Nat → Prop} (h1 : Written n b.1 S) (h2 : Written n b.2 S) (h : offBounds c l b = .ok b') :
    Written n b'.1 (fun j => S j ∨ (c.offFit = true ∧ l.off = some j)) ∧ Written n b'.2 (fun j => S j ∨ (c.offFit = true ∧ l.off = some j)) := by
  unfold offBounds at h
  by_cases hv : c.offFit = false
  · rw [if_pos hv] at h; cases h
    exact ⟨h1.congr (by simp [hv]), h2.congr (by simp [hv])⟩
  · rw [if_neg hv] at h
    have hv' : c.offFit = true := by simpa using hv
    by_cases hm : c.light = 0 ∨ normOff c = 0
    · rw [if_pos hm] at h; cases h
    · rw [if_neg hm] at h
      obtain ⟨lo, f1, h⟩ := Res.bind_eq_ok.1 h
      obtain ⟨hi, f2, h⟩ := Res.bind_eq_ok.1 h
      cases h
      exact ⟨(h1.put f1 (by simp)).congr (by simp [hv']), (h2.put f2 (by simp)).congr (by simp [hv'])⟩

theorem polyBounds_written {n : Nat} {c : Cfg K} {l : Lay} {b b' : List (Cell K) × List (Cell K)} {S : Nat → Prop} (h1 : Written n b.1 S) (h2 : Written n b.2 S) (h : polyBounds c l b = .ok b') :
    Written n b'.1 (fun j => S j ∨ (c.polyFit = true ∧ ∃ k, l.poly = some k ∧ k ≤ j ∧ j ≤ k + 2)) ∧ Written n b'.2 (fun j => S j ∨ (c.polyFit = true ∧ ∃ k, l.poly = some k ∧ k ≤ j ∧ j ≤ k + 2)) := by
  unfold polyBounds at h
  by_cases hv : c.polyFit = false
  · rw [if_pos hv] at h; cases h
    exact ⟨h1.congr (by simp [hv]), h2.congr (by simp [hv])⟩
  · rw [if_neg hv] at h
    have hv' : c.polyFit = true := by simpa using hv
    obtain ⟨lo, f1, h⟩ := Res.bind_eq_ok.1 h
    obtain ⟨hi, f2, h⟩ := Res.bind_eq_ok.1 h
    cases h
    exact ⟨(h1.put3 f1 (by simp) (by simp) (by simp)).congr (by simp [hv']), (h2.put3 f2 (by simp) (by simp) (by simp)).congr (by simp [hv'])⟩

/-- The entries of the bounds and of the guess which are set are the named positions. -/
theorem problem_written {c : Cfg K} {l : Lay} {norm : K} {pc : Polynom.Norm K} {idx : List Nat} {st : List (P K)} {pb : (List (Cell K) × List (Cell K)) × List (Cell K)} (h : problem c l norm pc idx st = .ok pb) :
    Written l.nddl pb.1.1 (Named c l idx.length) ∧ Written l.nddl pb.1.2 (Named c l idx.length) ∧ Written l.nddl pb.2 (Named c l idx.length) := by
  unfold problem at h
  obtain ⟨b, hb, h⟩ := Res.bind_eq_ok.1 h
  obtain ⟨g1, hg1, h⟩ := Res.bind_eq_ok.1 h
  obtain ⟨g2, hg2, h⟩ := Res.bind_eq_ok.1 h
  obtain ⟨g3, hg3, h⟩ := Res.bind_eq_ok.1 h
  obtain ⟨g4, hg4, h⟩ := Res.bind_eq_ok.1 h
  cases h
  have w0 := (written_init (K := K) l.nddl).congr (T := (· < 0)) (by simp)
  unfold bounds at hb
  obtain ⟨b1, hb1, hb⟩ := Res.bind_eq_ok.1 hb
  obtain ⟨b2, hb2, hb⟩ := Res.bind_eq_ok.1 hb
  obtain ⟨b3, hb3, hb⟩ := Res.bind_eq_ok.1 hb
  obtain ⟨x1, y1⟩ := ampBounds_written st idx 0 _ _ w0 w0 hb1
  obtain ⟨x2, y2⟩ := velBounds_written x1 y1 hb2
  obtain ⟨x3, y3⟩ := offBounds_written x2 y2 hb3
  obtain ⟨x4, y4⟩ := polyBounds_written x3 y3 hb
  have hT : ∀ j, j < l.nddl → ((((j < 0 + idx.length) ∨ (c.velFit = true ∧ ((l.type ≠ .emission ∧ l.velA = some j) ∨ (l.type ≠ .absorption ∧ l.velE = some j)))) ∨ (c.offFit = true ∧ l.off = some j)) ∨
      (c.polyFit = true ∧ ∃ k, l.poly = some k ∧ k ≤ j ∧ j ≤ k + 2) ↔ Named c l idx.length j) := by
    intro j _; unfold Named; rw [Nat.zero_add, or_assoc, or_assoc]
  refine ⟨x4.congr hT, y4.congr hT, ?_⟩
  have z1 := ampGuess_written norm st idx 0 _ _ w0 hg1
  have z2 : Written l.nddl g2 (fun j => j < 0 + idx.length ∨ (c.polyFit = true ∧ ∃ k, l.poly = some k ∧ k ≤ j ∧ j ≤ k + 2)) := by
    unfold polyGuess at hg2
    by_cases hv : c.polyFit = false
    · rw [if_pos hv] at hg2; cases hg2
      exact z1.congr (by simp [hv])
    · rw [if_neg hv] at hg2
      have hv' : c.polyFit = true := by simpa using hv
      obtain ⟨i, -, hg2⟩ := Res.bind_eq_ok.1 hg2
      obtain ⟨p, -, hg2⟩ := Res.bind_eq_ok.1 hg2
      exact (z1.put3 hg2 (by simp) (by simp) (by simp)).congr (by simp [hv'])
  have z3 := velGuess_written z2 hg3
  have z4 : Written l.nddl g4 (fun j => ((j < 0 + idx.length ∨ (c.polyFit = true ∧ ∃ k, l.poly = some k ∧ k ≤ j ∧ j ≤ k + 2)) ∨ (c.velFit = true ∧ ((l.type ≠ .emission ∧ l.velA = some j) ∨ (l.type ≠ .absorption ∧ l.velE = some j)))) ∨
      (c.offFit = true ∧ l.off = some j)) := by
    unfold offGuess at hg4
    by_cases hv : c.offFit = false
    · rw [if_pos hv] at hg4; cases hg4
      exact z3.congr (by simp [hv])
    · rw [if_neg hv] at hg4
      have hv' : c.offFit = true := by simpa using hv
      exact (z3.put hg4 (by simp)).congr (by simp [hv'])
  refine z4.congr ?_
  intro j hj
  unfold Named
  rw [Nat.zero_add]
  constructor
  · rintro (((h | h) | h) | h)
    · exact Or.inl h
    · exact Or.inr (Or.inr (Or.inr h))
    · exact Or.inr (Or.inl h)
    · exact Or.inr (Or.inr (Or.inl h))
  · rintro (h | h | h | h)
    · exact Or.inl (Or.inl (Or.inl h))
    · exact Or.inl (Or.inr h)
    · exact Or.inr h
    · exact Or.inl (Or.inl (Or.inr h))

/-- The named positions are all the positions but those of the extra ones. -/
theorem named_iff (c : Cfg K) {types : List LType} (hne : types ≠ []) (hall : ∀ t ∈ types, t ≠ .all) (j : Nat) (hj : j < (layout c types).nddl) :
    Named c (layout c types) types.length j ↔ ¬ (c.velFit = true ∧ Mixed types ∧ types.length + 2 ≤ j ∧ j < types.length + 2 + gap types) := by
  classical
  obtain ⟨l, v, extra, hl, hv, he, h1, h2, h3, h4, h5, h6⟩ := C147_layout c hne hall
  rw [hl] at hj ⊢
  unfold Named
  have hg0 : ¬ Mixed types → gap types = 0 := by
    intro h; rw [mixed_iff, not_not] at h; unfold gap; rw [h]; rfl
  by_cases hvf : c.velFit = true
  · have g1 : (c.velFit = true ∧ ((l.type ≠ .emission ∧ l.velA = some j) ∨ (l.type ≠ .absorption ∧ l.velE = some j))) ↔ (types.length ≤ j ∧ j < types.length + v) := by
      by_cases hm : Mixed types
      · obtain ⟨k1, k2, k3⟩ := h2 hvf hm
        rw [hv, if_pos hvf, if_pos hm, k1, k2, k3]
        simp [hvf]
        omega
      · rw [hv, if_pos hvf, if_neg hm]
        cases ht : types.headD .all with
        | absorption =>
          obtain ⟨k1, k2⟩ := h3 hvf hm ht
          rw [k1, k2]; simp [hvf]; omega
        | emission =>
          obtain ⟨k1, k2⟩ := h4 hvf hm ht
          rw [k1, k2]; simp [hvf]; omega
        | all =>
          exfalso
          cases types with
          | nil => exact hne rfl
          | cons t ts => exact hall t (by simp) ht
    rw [g1]
    have g2 : (c.offFit = true ∧ l.off = some j) ↔ (c.offFit = true ∧ j = types.length + v + extra) := by
      constructor
      · rintro ⟨a, b⟩; rw [h5 a] at b; simp at b; exact ⟨a, b.symm⟩
      · rintro ⟨a, b⟩; exact ⟨a, by rw [h5 a, b]⟩
    have g3 : (c.polyFit = true ∧ ∃ k, l.poly = some k ∧ k ≤ j ∧ j ≤ k + 2) ↔ (c.polyFit = true ∧ types.length + v + extra + (if c.offFit then 1 else 0) ≤ j ∧ j ≤ types.length + v + extra + (if c.offFit then 1 else 0) + 2) := by
      constructor
      · rintro ⟨a, k, b, d⟩; rw [h6 a] at b; simp only [Option.some.injEq] at b; exact ⟨a, by rw [b]; exact d⟩
      · rintro ⟨a, b⟩; exact ⟨a, _, h6 a, b⟩
    rw [g2, g3]
    by_cases hm : Mixed types
    · rw [if_pos hvf, if_pos hm] at hv
      rw [if_pos ⟨hvf, hm⟩] at he
      simp only [hvf, hm, true_and]
      cases hof : c.offFit <;> cases hpf : c.polyFit <;> simp [hof, hpf] at h1 ⊢ <;> omega
    · rw [if_pos hvf, if_neg hm] at hv
      rw [if_neg (by simp [hm])] at he
      simp only [hvf, hm, true_and, false_and]
      cases hof : c.offFit <;> cases hpf : c.polyFit <;> simp [hof, hpf] at h1 ⊢ <;> omega
  · rw [if_neg (by simp [hvf])] at he
    rw [if_neg hvf] at hv
    have g2 : (c.offFit = true ∧ l.off = some j) ↔ (c.offFit = true ∧ j = types.length + v + extra) := by
      constructor
      · rintro ⟨a, b⟩; rw [h5 a] at b; simp at b; exact ⟨a, b.symm⟩
      · rintro ⟨a, b⟩; exact ⟨a, by rw [h5 a, b]⟩
    have g3 : (c.polyFit = true ∧ ∃ k, l.poly = some k ∧ k ≤ j ∧ j ≤ k + 2) ↔ (c.polyFit = true ∧ types.length + v + extra + (if c.offFit then 1 else 0) ≤ j ∧ j ≤ types.length + v + extra + (if c.offFit then 1 else 0) + 2) := by
      constructor
      · rintro ⟨a, k, b, d⟩; rw [h6 a] at b; simp only [Option.some.injEq] at b; exact ⟨a, by rw [b]; exact d⟩
      · rintro ⟨a, b⟩; exact ⟨a, _, h6 a, b⟩
    rw [g2, g3]
    simp only [hvf, false_and]
    cases hof : c.offFit <;> cases hpf : c.polyFit <;> simp [hof, hpf] at h1 ⊢ <;> omega

/-- **C147** Which entries of the bounds and of the guess given to the minimiser are set: all of them, except (with a fit of the velocities of elements of two types) as many entries after
the velocities as there are elements after the first one of the other type. -/
theorem C147_set {c : Cfg K} {norm : K} {pc : Polynom.Norm K} {idx : List Nat} {st : List (P K)} {types : List LType} {pb : (List (Cell K) × List (Cell K)) × List (Cell K)}
    (hne : idx ≠ []) (ht : types.length = idx.length) (hall : ∀ t ∈ types, t ≠ .all) (h : problem c (layout c types) norm pc idx st = .ok pb) :
    pb.1.1.length = (layout c types).nddl ∧ pb.1.2.length = (layout c types).nddl ∧ pb.2.length = (layout c types).nddl ∧
    ∀ v ∈ [pb.1.1, pb.1.2, pb.2], ∀ j, j < (layout c types).nddl →
      (v[j]? = some .unset ↔ c.velFit = true ∧ Mixed types ∧ idx.length + 2 ≤ j ∧ j < idx.length + 2 + gap types) := by
  have hne' : types ≠ [] := by rintro rfl; simp at ht; exact hne (List.length_eq_zero_iff.1 ht.symm)
  obtain ⟨h1, h2, h3⟩ := problem_written h
  refine ⟨h1.1, h2.1, h3.1, ?_⟩
  intro v hv j hj
  have key : ∀ v : List (Cell K), Written (layout c types).nddl v (Named c (layout c types) idx.length) →
      (v[j]? = some .unset ↔ c.velFit = true ∧ Mixed types ∧ idx.length + 2 ≤ j ∧ j < idx.length + 2 + gap types) := by
    intro v hw
    rw [hw.2 j hj, ← ht, named_iff c hne' hall j hj, not_not]
  simp only [List.mem_cons, List.not_mem_nil, or_false] at hv
  rcases hv with rfl | rfl | rfl <;> exact key _ ‹_›

/-- **C147**, negation: with elements of two types and at least one element after the first one of the other type, the minimiser is given bounds that were never set: undefined behaviour,
for every minimiser. -/
theorem C147_gap_ub {c : Cfg K} {x : Ext K} {s : Spc K} {norm : K} {pc : Polynom.Norm K} {xs idx : List Nat} {st : List (P K)} {types : List LType} {pb : (List (Cell K) × List (Cell K)) × List (Cell K)}
    (hne : idx ≠ []) (ht : types.length = idx.length) (hall : ∀ t ∈ types, t ≠ .all) (hv : c.velFit = true) (hm : Mixed types) (hg : 0 < gap types)
    (h : problem c (layout c types) norm pc idx st = .ok pb) : solve c x (layout c types) s norm pc xs idx pb st = .ub := by
  classical
  obtain ⟨h1, -, -, h4⟩ := C147_set hne ht hall h
  have hne' : types ≠ [] := by rintro rfl; simp at ht; exact hne (List.length_eq_zero_iff.1 ht.symm)
  obtain ⟨l, v, extra, hl, hv', he, hn, -⟩ := C147_layout c hne' hall
  rw [if_pos hv, if_pos hm] at hv'
  rw [if_pos ⟨hv, hm⟩] at he
  have hj : idx.length + 2 < (layout c types).nddl := by rw [hl, hn, ← ht]; omega
  have hu := (h4 pb.1.1 (by simp) _ hj).2 ⟨hv, hm, le_rfl, by omega⟩
  unfold solve
  rw [if_pos]
  left
  unfold allSet
  rw [Bool.eq_false_iff]
  intro hc
  rw [List.all_eq_true] at hc
  have := hc _ (List.mem_of_getElem? hu)
  simp at this

/-- **C147** Otherwise all the entries are set. -/
theorem C147_all_set_partial {c : Cfg K} {norm : K} {pc : Polynom.Norm K} {idx : List Nat} {st : List (P K)} {types : List LType} {pb : (List (Cell K) × List (Cell K)) × List (Cell K)}
    (hne : idx ≠ []) (ht : types.length = idx.length) (hall : ∀ t ∈ types, t ≠ .all) (hg : c.velFit = false ∨ ¬ Mixed types ∨ gap types = 0)
    (h : problem c (layout c types) norm pc idx st = .ok pb) : allSet pb.1.1 = true ∧ allSet pb.1.2 = true ∧ allSet pb.2 = true := by
  obtain ⟨h1, h2, h3, h4⟩ := C147_set hne ht hall h
  have key : ∀ v ∈ [pb.1.1, pb.1.2, pb.2], v.length = (layout c types).nddl → allSet v = true := by
    intro v hv hl
    unfold allSet
    rw [List.all_eq_true]
    intro a ha
    obtain ⟨j, hj, rfl⟩ := List.getElem_of_mem ha
    rw [decide_eq_true_iff]
    intro he
    obtain ⟨a1, a2, a3, a4⟩ := (h4 v hv j (by omega)).1 (by rw [List.getElem?_eq_getElem hj, he])
    rcases hg with hg | hg | hg
    · rw [a1] at hg; cases hg
    · exact hg a2
    · omega
  exact ⟨key _ (by simp) h1, key _ (by simp) h2, key _ (by simp) h3⟩

example : gap [.emission, .absorption, .absorption] = 1 ∧ gap [.emission, .emission, .absorption] = 0 ∧ gap [.absorption, .emission, .absorption, .emission] = 2 := by decide

end Lbfgs
end Amazed
