import Verif.Model.TplRatio
import Mathlib.Tactic.Ring
import Mathlib.Tactic.Linarith

set_option linter.unusedVariables false
set_option linter.unusedSectionVars false

/-! # C93: the fit over continua and line ratio catalogs -/

namespace Amazed
namespace TplRatio

variable {K : Type} [Field K] [LinearOrder K] [IsStrictOrderedRing K]

/-- The catalog is fitted (otherwise its results are copied from the previous catalog). -/
def Fitted (c : Cfg K) (r : Nat) : Prop := r < c.nRatio ∧ ¬ (c.ratio = true ∧ c.ismOff = true ∧ 0 < r ∧ 0 < c.ism r)

/-- Order of the fits: continuum first, then catalog. -/
def Lex (a b : Src) : Prop := a.1 < b.1 ∨ a.1 = b.1 ∧ a.2 < b.2

/-- The fits done: continuum below `nCont`, catalog fitted. -/
def Done (c : Cfg K) (a : Src) : Prop := a.1 < c.nCont ∧ Fitted c a.2

/-- `b` is the first fit of smallest merit, which is finite, among the fits in `P`. -/
structure First (m : Src → WithTop K) (P : Src → Prop) (b : Src) : Prop where
  mem : P b
  fin : m b ≠ ⊤
  le : ∀ a, P a → m b ≤ m a
  lt : ∀ a, P a → Lex a b → m b < m a

/-- The best of the fits in `P`, if some merit is finite. -/
def Best (m : Src → WithTop K) (P : Src → Prop) : Option Src → Prop
  | none => ∀ a, P a → m a = ⊤
  | some b => First m P b

/-- The value of a best fit. -/
def val (m : Src → WithTop K) : Option Src → WithTop K
  | none => ⊤
  | some b => m b

theorem First.unique {m : Src → WithTop K} {P : Src → Prop} {a b : Src} (ha : First m P a) (hb : First m P b) : a = b := by
  obtain ⟨a1, a2⟩ := a
  obtain ⟨b1, b2⟩ := b
  by_contra hne
  have : Lex (a1, a2) (b1, b2) ∨ Lex (b1, b2) (a1, a2) := by
    unfold Lex
    simp only [Prod.mk.injEq, not_and] at hne ⊢
    rcases lt_trichotomy a1 b1 with h | h | h
    · omega
    · have := hne h; omega
    · omega
  rcases this with h | h
  · exact absurd (ha.le _ hb.mem) (not_le.2 (hb.lt _ ha.mem h))
  · exact absurd (hb.le _ ha.mem) (not_le.2 (ha.lt _ hb.mem h))

/-- What a table entry must be: the first fit of that catalog of smallest merit plus prior, or nothing if none is finite. -/
structure EntryOk (c : Cfg K) (m : Src → WithTop K) (n r : Nat) (e : Entry K) : Prop where
  best : Best (fun a => m a + (c.prior a.1 a.2 : WithTop K)) (fun a => a.1 < n ∧ a.2 = r) e.src
  none : e.src = none → e.merit = ⊤ ∧ e.prior = 0
  some : ∀ a, e.src = some a → e.merit = m a ∧ e.prior = c.prior a.1 a.2

/-- Adding one more fit to those already compared. -/
theorem Best.add {m : Src → WithTop K} {P Q : Src → Prop} {b : Option Src} (h : Best m P b) (x : Src) (hx : ∀ a, P a → Lex a x)
    (hQ : ∀ a, Q a ↔ P a ∨ a = x) :
    Best m Q (if m x < val m b then some x else b) := by
  split
  · rename_i hlt
    refine ⟨(hQ _).2 (Or.inr rfl), ne_top_of_lt hlt, ?_, ?_⟩
    · intro a ha
      rcases (hQ a).1 ha with h1 | rfl
      · cases b with
        | none => rw [h a h1]; exact le_top
        | some b => exact le_of_lt (lt_of_lt_of_le hlt (h.le a h1))
      · exact le_refl _
    · intro a ha hl
      rcases (hQ a).1 ha with h1 | rfl
      · cases b with
        | none => rw [h a h1]; exact hlt
        | some b => exact lt_of_lt_of_le hlt (h.le a h1)
      · unfold Lex at hl; omega
  · rename_i hlt
    cases b with
    | none =>
      intro a ha
      rcases (hQ a).1 ha with h1 | rfl
      · exact h a h1
      · exact not_lt_top_iff.1 hlt
    | some b =>
      refine ⟨(hQ _).2 (Or.inl h.mem), h.fin, ?_, ?_⟩
      · intro a ha
        rcases (hQ a).1 ha with h1 | rfl
        · exact h.le a h1
        · exact not_lt.1 hlt
      · intro a ha hl
        rcases (hQ a).1 ha with h1 | rfl
        · exact h.lt a h1 hl
        · have := hx b h.mem
          unfold Lex at this hl
          omega

theorem Best.same {m : Src → WithTop K} {P Q : Src → Prop} {b : Option Src} (h : Best m P b) (hQ : ∀ a, Q a ↔ P a) : Best m Q b := by
  have : Q = P := funext fun a => propext (hQ a)
  rw [this]; exact h

/-- The invariant before the fit `(k, r)`. -/
structure Inv (c : Cfg K) (m : Src → WithTop K) (k r : Nat) (s : St K) : Prop where
  sol : Best m (fun a => Fitted c a.2 ∧ Lex a (k, r)) s.sol
  best : s.best = val m s.sol
  bp : s.bestPrior = 0
  cont : s.cont = s.sol.map Prod.fst
  ratio : s.ratio = if c.ratio then s.sol.map Prod.snd else none
  len : s.table.length = c.nRatio
  table : c.ratio = true → ∀ r' e, Fitted c r' → s.table[r']? = some e → EntryOk c m (if r' < r then k + 1 else k) r' e
  copied : c.ratio = true → ∀ r', r' < r → r' < c.nRatio → ¬ Fitted c r' → s.table[r']? = s.table[r' - 1]?

theorem skips_iff (c : Cfg K) {r : Nat} (hr : r < c.nRatio) : skips c r = true ↔ ¬ Fitted c r := by
  unfold skips Fitted
  simp only [Bool.and_eq_true, decide_eq_true_eq, hr, true_and, not_not, and_assoc]

theorem fitted_zero (c : Cfg K) (h : 0 < c.nRatio) : Fitted c 0 := ⟨h, by rintro ⟨_, _, h, _⟩; omega⟩

theorem step_inv (c : Cfg K) (m : Src → WithTop K) (k r : Nat) (hr : r < c.nRatio)
    (hm : Fitted c r → c.merit k r = .ok (m (k, r))) (s : St K) (h : Inv c m k r s) :
    ∃ s', step c k r s = .ok s' ∧ Inv c m k (r + 1) s' ∧ (Fitted c r → s'.elts = some (k, r)) ∧ (¬ Fitted c r → s'.elts = s.elts) ∧
      s'.loaded = s.loaded := by
  unfold step
  by_cases hs : skips c r = true
  · have hnf := (skips_iff c hr).1 hs
    have hr0 : r ≠ 0 := by rintro rfl; exact hnf (fitted_zero c hr)
    have hrat : c.ratio = true := by
      unfold skips at hs; simp only [Bool.and_eq_true] at hs; exact hs.1.1.1
    rw [if_pos hs]
    unfold duplicate
    have hl : r - 1 < s.table.length := by rw [h.len]; omega
    rw [if_neg hr0, Res.at_of_lt hl, Res.bind_ok]
    refine ⟨_, rfl, ⟨?_, h.best, h.bp, h.cont, h.ratio, by simp [h.len], ?_, ?_⟩, fun hf => absurd hf hnf, fun _ => rfl, rfl⟩
    · refine h.sol.same ?_
      intro a
      constructor
      · rintro ⟨h1, h2⟩
        refine ⟨h1, ?_⟩
        have : a.2 ≠ r := by rintro rfl; exact hnf h1
        unfold Lex at h2 ⊢
        simp only at h2 ⊢
        omega
      · rintro ⟨h1, h2⟩
        refine ⟨h1, ?_⟩
        unfold Lex at h2 ⊢
        simp only at h2 ⊢
        omega
    · intro _ r' e hf he
      have hne : r ≠ r' := by rintro rfl; exact hnf hf
      simp only [List.getElem?_set_ne hne] at he
      have := h.table hrat r' e hf he
      have e1 : (if r' < r + 1 then k + 1 else k) = (if r' < r then k + 1 else k) := by
        by_cases c1 : r' < r
        · rw [if_pos c1, if_pos (by omega)]
        · rw [if_neg c1, if_neg (by omega)]
      rw [e1]; exact this
    · intro _ r' h1 h2 h3
      by_cases hrr : r = r'
      · subst hrr
        simp only
        rw [List.getElem?_set_self (by rw [h.len]; exact h2), List.getElem?_set_ne (by omega), List.getElem?_eq_getElem hl]
      · simp only
        rw [List.getElem?_set_ne hrr, List.getElem?_set_ne (by omega)]
        exact h.copied hrat r' (by omega) h2 h3
  · have hf : Fitted c r := by
      by_contra hc; exact hs ((skips_iff c hr).2 hc)
    rw [if_neg hs, hm hf, Res.bind_ok]
    -- the table
    have hrec : ∃ t, record c k r (m (k, r)) { s with elts := some (k, r) } = .ok { s with elts := some (k, r), table := t } ∧
        t.length = c.nRatio ∧
        (c.ratio = true → ∀ r' e, Fitted c r' → t[r']? = some e → EntryOk c m (if r' < r + 1 then k + 1 else k) r' e) ∧
        (c.ratio = true → ∀ r', r' < r → t[r']? = s.table[r']?) := by
      unfold record
      by_cases hrat : c.ratio = true
      · rw [if_pos hrat]
        have hl : r < s.table.length := by rw [h.len]; exact hr
        simp only
        rw [Res.at_of_lt hl, Res.bind_ok]
        have old := h.table hrat r s.table[r] hf (List.getElem?_eq_getElem hl)
        rw [if_neg (lt_irrefl r)] at old
        have hval : (s.table[r]).merit + ((s.table[r]).prior : WithTop K) =
            val (fun a => m a + (c.prior a.1 a.2 : WithTop K)) (s.table[r]).src := by
          cases hsrc : (s.table[r]).src with
          | none => rw [(old.none hsrc).1]; rfl
          | some b => rw [(old.some b hsrc).1, (old.some b hsrc).2]; rfl
        have badd := Best.add old.best (k, r) (Q := fun a => a.1 < k + 1 ∧ a.2 = r)
          (by rintro a ⟨h1, h2⟩; left; exact h1)
          (by
            rintro ⟨a1, a2⟩
            simp only [Prod.mk.injEq]
            omega)
        have other : ∀ (x : Entry K) r' e, r ≠ r' → Fitted c r' → (s.table.set r x)[r']? = some e →
            EntryOk c m (if r' < r + 1 then k + 1 else k) r' e := by
          intro x r' e hne hf' he
          rw [List.getElem?_set_ne hne] at he
          have := h.table hrat r' e hf' he
          have e1 : (if r' < r + 1 then k + 1 else k) = (if r' < r then k + 1 else k) := by
            by_cases c1 : r' < r
            · rw [if_pos c1, if_pos (by omega)]
            · rw [if_neg c1, if_neg (by omega)]
          rw [e1]; exact this
        by_cases hlt : m (k, r) + (c.prior k r : WithTop K) < (s.table[r]).merit + ((s.table[r]).prior : WithTop K)
        · rw [if_pos hlt]
          refine ⟨s.table.set r ⟨m (k, r), c.prior k r, some (k, r)⟩, rfl, by simp [h.len], ?_, ?_⟩
          · intro _ r' e hf' he
            by_cases hne : r = r'
            · subst hne
              rw [List.getElem?_set_self hl, Option.some.injEq] at he
              subst he
              rw [if_pos (by omega)]
              rw [hval] at hlt
              rw [if_pos hlt] at badd
              refine ⟨badd, by simp, ?_⟩
              rintro a ha
              simp only [Option.some.injEq] at ha
              subst ha
              exact ⟨rfl, rfl⟩
            · exact other _ r' e hne hf' he
          · intro _ r' hlt'
            rw [List.getElem?_set_ne (by omega)]
        · rw [if_neg hlt]
          refine ⟨s.table, rfl, h.len, ?_, fun _ _ _ => rfl⟩
          intro _ r' e hf' he
          by_cases hne : r = r'
          · subst hne
            rw [List.getElem?_eq_getElem hl, Option.some.injEq] at he
            subst he
            rw [if_pos (by omega)]
            rw [hval] at hlt
            rw [if_neg hlt] at badd
            exact ⟨badd, old.none, old.some⟩
          · have := other s.table[r] r' e hne hf' (by rw [List.getElem?_set_ne hne]; exact he)
            exact this
      · rw [if_neg hrat]
        exact ⟨s.table, rfl, h.len, fun hc => absurd hc hrat, fun hc => absurd hc hrat⟩
    obtain ⟨t, e1, e2, e3, e4⟩ := hrec
    rw [e1, Res.bind_ok]
    have hsol := Best.add h.sol (k, r) (Q := fun a => Fitted c a.2 ∧ Lex a (k, r + 1))
      (by rintro a ⟨_, h2⟩; exact h2)
      (by
        rintro ⟨a1, a2⟩
        unfold Lex
        simp only [Prod.mk.injEq]
        constructor
        · rintro ⟨h1, h2⟩
          by_cases hc : a1 = k ∧ a2 = r
          · exact Or.inr hc
          · left; refine ⟨h1, ?_⟩; omega
        · rintro (⟨h1, h2⟩ | ⟨rfl, rfl⟩)
          · refine ⟨h1, ?_⟩; omega
          · exact ⟨hf, by omega⟩)
    have hcmp : (s.best + (s.bestPrior : WithTop K) > m (k, r) + ((0 : K) : WithTop K)) ↔ m (k, r) < val m s.sol := by
      rw [h.bp, h.best]
      simp
    have hcop : c.ratio = true → ∀ r', r' < r + 1 → r' < c.nRatio → ¬ Fitted c r' → t[r']? = t[r' - 1]? := by
      intro hrat r' h1 h2 h3
      have hne : r' ≠ r := by rintro rfl; exact h3 hf
      rw [e4 hrat r' (by omega), e4 hrat (r' - 1) (by omega)]
      exact h.copied hrat r' (by omega) h2 h3
    simp only
    by_cases hlt : m (k, r) < val m s.sol
    · rw [if_pos (hcmp.2 hlt)]
      rw [if_pos hlt] at hsol
      refine ⟨_, rfl, ⟨hsol, rfl, rfl, rfl, ?_, e2, e3, hcop⟩, fun _ => rfl, fun hc => absurd hf hc, rfl⟩
      simp only
      by_cases hrat : c.ratio = true
      · simp [hrat]
      · simp [h.ratio, hrat]
    · rw [if_neg (fun hc => hlt (hcmp.1 hc))]
      rw [if_neg hlt] at hsol
      exact ⟨_, rfl, ⟨hsol, h.best, h.bp, h.cont, h.ratio, e2, e3, hcop⟩, fun _ => rfl, fun hc => absurd hf hc, rfl⟩

theorem row_inv (c : Cfg K) (m : Src → WithTop K) (k : Nat) (hm : ∀ r, Fitted c r → c.merit k r = .ok (m (k, r))) (s : St K)
    (h : Inv c m k 0 s) : ∃ s', Res.foldN (step c k) 0 c.nRatio s = .ok s' ∧ Inv c m k c.nRatio s' ∧ s'.loaded = s.loaded ∧
      (0 < c.nRatio → ∃ r, Fitted c r ∧ s'.elts = some (k, r) ∧ ∀ r', Fitted c r' → r' ≤ r) := by
  obtain ⟨s', h1, h2, h3, h4⟩ := Res.foldN_inv (f := step c k) (fun r (s' : St K) => Inv c m k r s' ∧ s'.loaded = s.loaded ∧
    (0 < r → ∃ r0, Fitted c r0 ∧ s'.elts = some (k, r0) ∧ ∀ r', Fitted c r' → r' < r → r' ≤ r0)) c.nRatio 0 s
    ⟨h, rfl, fun h => absurd h (lt_irrefl _)⟩
    (by
      rintro r s1 _ hr ⟨hi, hl, he⟩
      rw [Nat.zero_add] at hr
      obtain ⟨s2, q1, q2, q3, q4, q5⟩ := step_inv c m k r hr (hm r) s1 hi
      refine ⟨s2, q1, q2, by rw [q5, hl], ?_⟩
      intro _
      by_cases hf : Fitted c r
      · exact ⟨r, hf, q3 hf, fun r' _ h => by omega⟩
      · have hr0 : r ≠ 0 := by rintro rfl; exact hf (fitted_zero c hr)
        obtain ⟨r0, g1, g2, g3⟩ := he (by omega)
        refine ⟨r0, g1, by rw [q4 hf, g2], ?_⟩
        intro r' hf' hr'
        apply g3 r' hf'
        have : r' ≠ r := by rintro rfl; exact hf hf'
        omega)
  rw [Nat.zero_add] at h2 h4
  refine ⟨s', h1, h2, h3, ?_⟩
  intro h0
  obtain ⟨r0, g1, g2, g3⟩ := h4 h0
  exact ⟨r0, g1, g2, fun r' hf => g3 r' hf hf.1⟩

theorem Inv.next {c : Cfg K} {m : Src → WithTop K} {k : Nat} {s : St K} (h : Inv c m k c.nRatio s) : Inv c m (k + 1) 0 s := by
  refine ⟨h.sol.same ?_, h.best, h.bp, h.cont, h.ratio, h.len, ?_, fun _ r' h1 => absurd h1 (by omega)⟩
  · intro a
    unfold Lex
    simp only
    constructor
    · rintro ⟨h1, h2⟩; refine ⟨h1, ?_⟩; have := h1.1; omega
    · rintro ⟨h1, h2⟩; refine ⟨h1, ?_⟩; have := h1.1; omega
  · intro hr r' e hf he
    have := h.table hr r' e hf he
    rw [if_pos hf.1] at this
    rw [if_neg (by omega)]
    exact this

theorem loops_inv (c : Cfg K) (m : Src → WithTop K) (hm : ∀ k r, k < c.nCont → Fitted c r → c.merit k r = .ok (m (k, r)))
    (elts : Option Src) : ∃ s, loops c (prepare c elts) = .ok s ∧
      Best m (Done c) s.sol ∧ s.best = val m s.sol ∧ s.cont = s.sol.map Prod.fst ∧
      s.ratio = (if c.ratio then s.sol.map Prod.snd else none) ∧ s.table.length = c.nRatio ∧
      (c.ratio = true → ∀ r e, Fitted c r → s.table[r]? = some e → EntryOk c m c.nCont r e) ∧
      (c.ratio = true → ∀ r, 0 < c.nCont → r < c.nRatio → ¬ Fitted c r → s.table[r]? = s.table[r - 1]?) ∧
      (0 < c.nCont → s.loaded = some (c.nCont - 1)) ∧
      (0 < c.nCont → 0 < c.nRatio → ∃ r, Fitted c r ∧ s.elts = some (c.nCont - 1, r) ∧ ∀ r', Fitted c r' → r' ≤ r) := by
  have h0 : Inv c m 0 0 (prepare c elts) := by
    refine ⟨?_, rfl, rfl, rfl, by simp [prepare], by simp [prepare], ?_, fun _ r' h => absurd h (by omega)⟩
    · rintro a ⟨_, h⟩; unfold Lex at h; simp only at h; omega
    · intro _ r e hf he
      simp only [prepare] at he
      rw [List.getElem?_replicate] at he
      split at he
      · cases he
        exact ⟨fun a h => absurd h.1 (by simp), fun _ => ⟨rfl, rfl⟩, fun a h => by cases h⟩
      · cases he
  obtain ⟨s, h1, h2, h3, h4, h5⟩ := Res.foldN_inv (f := fun k (s : St K) => Res.foldN (step c k) 0 c.nRatio { s with loaded := some k })
    (fun k (s : St K) => Inv c m k 0 s ∧ (0 < k → s.loaded = some (k - 1)) ∧
      (0 < k → 0 < c.nRatio → ∃ r, Fitted c r ∧ s.elts = some (k - 1, r) ∧ ∀ r', Fitted c r' → r' ≤ r) ∧
      (c.ratio = true → ∀ r, 0 < k → r < c.nRatio → ¬ Fitted c r → s.table[r]? = s.table[r - 1]?)) c.nCont 0 (prepare c elts)
    ⟨h0, fun h => absurd h (lt_irrefl _), fun h => absurd h (lt_irrefl _), fun _ _ h => absurd h (lt_irrefl _)⟩
    (by
      rintro k s1 _ hk ⟨hi, _, _, _⟩
      rw [Nat.zero_add] at hk
      have hi' : Inv c m k 0 { s1 with loaded := some k } := ⟨hi.sol, hi.best, hi.bp, hi.cont, hi.ratio, hi.len, hi.table, hi.copied⟩
      obtain ⟨s2, q1, q2, q3, q4⟩ := row_inv c m k (fun r hf => hm k r hk hf) _ hi'
      refine ⟨s2, q1, q2.next, fun _ => by rw [q3]; rfl, fun _ h => q4 h, ?_⟩
      intro hr r _ hlt hn
      exact q2.copied hr r hlt hlt hn)
  rw [Nat.zero_add] at h2 h3 h4 h5
  refine ⟨s, h1, h2.sol.same ?_, h2.best, h2.cont, h2.ratio, h2.len, ?_, h5, h3, h4⟩
  · intro a
    unfold Done Lex
    simp only
    constructor
    · rintro ⟨ha, hb⟩; exact ⟨hb, Or.inl ha⟩
    · rintro ⟨ha, hb⟩; exact ⟨by omega, ha⟩
  · intro hr r e hf he
    have := h2.table hr r e hf he
    rw [if_neg (by omega)] at this
    exact this

/-- **C93, result.** When every merit is a number or `+∞`, `fit` without logging always returns; it returns the smallest merit over all
continua and all fitted catalogs, and the solutions it hands back are those of the first fit that reaches it (untouched if no
merit is finite). -/
theorem C93_best_partial (c : Cfg K) (m : Src → WithTop K) (hm : ∀ k r, k < c.nCont → Fitted c r → c.merit k r = .ok (m (k, r)))
    (elts : Option Src) : ∃ s, fit c false elts = .ok s ∧ Best m (Done c) s.sol ∧ s.best = val m s.sol := by
  obtain ⟨s, h1, h2, h3, _⟩ := loops_inv c m hm elts
  refine ⟨s, ?_, h2, h3⟩
  unfold fit
  rw [h1, Res.bind_ok]
  rfl

/-- **C93, tables.** After a fit by ratio catalogs the table entry of a fitted catalog is the first of its fits of smallest merit plus prior,
with the results of that same fit; a catalog that is not fitted has the entry of the catalog before it. -/
theorem C93_tables (c : Cfg K) (m : Src → WithTop K) (hm : ∀ k r, k < c.nCont → Fitted c r → c.merit k r = .ok (m (k, r)))
    (hc : c.ratio = true) (hn : 0 < c.nCont) (logging : Bool) (elts : Option Src) (s : St K) (h : fit c logging elts = .ok s) :
    s.table.length = c.nRatio ∧ (∀ r e, Fitted c r → s.table[r]? = some e → EntryOk c m c.nCont r e) ∧
      (∀ r, r < c.nRatio → ¬ Fitted c r → 0 < r ∧ s.table[r]? = s.table[r - 1]?) := by
  obtain ⟨s1, h1, h2, h3, h4, h5, h6, h7, h8, h9, h10⟩ := loops_inv c m hm elts
  have ht : s.table = s1.table := by
    unfold fit at h
    rw [h1, Res.bind_ok] at h
    cases logging
    · simp only [Bool.false_eq_true, if_false, Res.ok.injEq] at h; rw [← h]
    · simp only [if_true, hc] at h
      obtain ⟨s2, e1, e2⟩ := Res.bind_eq_ok.1 h
      simp only [Res.ok.injEq] at e2
      rw [← e2]
      unfold resetBest at e1
      split at e1
      · cases e1
      · obtain ⟨e, g1, g2⟩ := Res.bind_eq_ok.1 e1
        simp only [Res.ok.injEq] at g2
        rw [← g2]
        simp only
        split <;> rfl
  rw [ht]
  refine ⟨h6, h7 hc, ?_⟩
  intro r hr hf
  refine ⟨?_, h8 hc r hn hr hf⟩
  rcases Nat.eq_zero_or_pos r with rfl | h
  · exact absurd (fitted_zero c hr) hf
  · exact h

/-- **C93, consistency.** Without a prior on the lines, if some merit is finite, a fit by ratio catalogs ends with the elements, the
loaded continuum and the solutions all taken from one fit, the first of smallest merit. -/
theorem C93_consistent (c : Cfg K) (m : Src → WithTop K) (hm : ∀ k r, k < c.nCont → Fitted c r → c.merit k r = .ok (m (k, r)))
    (hc : c.ratio = true) (hp : ∀ k r, c.prior k r = 0) (hsv : 1 < c.nCont → c.tplfit = true ∧ c.svdlc = false)
    (elts : Option Src) (hfin : ∃ a, Done c a ∧ m a ≠ ⊤) :
    ∃ s b, fit c true elts = .ok s ∧ First m (Done c) b ∧ s.best = m b ∧ s.sol = some b ∧ s.elts = some b ∧ s.loaded = some b.1 ∧
      s.ratio = some b.2 := by
  obtain ⟨s, h1, h2, h3, h4, h5, h6, h7, h8, h9, h10⟩ := loops_inv c m hm elts
  cases hs : s.sol with
  | none =>
    rw [hs] at h2
    obtain ⟨a, ha, hb⟩ := hfin
    exact absurd (h2 a ha) hb
  | some b =>
    rw [hs] at h2 h3 h4 h5
    rw [if_pos hc] at h5
    have hrat : s.ratio = some b.2 := by rw [h5]; rfl
    have hd := h2.mem
    have hbl : b.2 < s.table.length := by rw [h6]; exact hd.2.1
    have hent := h7 hc b.2 s.table[b.2] hd.2 (List.getElem?_eq_getElem hbl)
    have hsrc : (s.table[b.2]).src = some b := by
      have hbest := hent.best
      cases hq : (s.table[b.2]).src with
      | none =>
        rw [hq] at hbest
        have := hbest b ⟨hd.1, rfl⟩
        simp only [hp, WithTop.coe_zero, add_zero] at this
        exact absurd this h2.fin
      | some q =>
        rw [hq] at hbest
        have hP : First m (fun a => a.1 < c.nCont ∧ a.2 = b.2) q := by
          have e : (fun a : Src => m a + (c.prior a.1 a.2 : WithTop K)) = m := by
            funext a; simp [hp]
          have hb' : First (fun a : Src => m a + (c.prior a.1 a.2 : WithTop K)) (fun a => a.1 < c.nCont ∧ a.2 = b.2) q := hbest
          rw [e] at hb'
          exact hb'
        have hB : First m (fun a => a.1 < c.nCont ∧ a.2 = b.2) b := by
          refine ⟨⟨hd.1, rfl⟩, h2.fin, ?_, ?_⟩
          · rintro a ⟨a1, a2⟩; exact h2.le a ⟨a1, a2 ▸ hd.2⟩
          · rintro a ⟨a1, a2⟩ hl; exact h2.lt a ⟨a1, a2 ▸ hd.2⟩ hl
        rw [hP.unique hB]
    have hcont : s.cont = some b.1 := by rw [h4]; rfl
    let s1 : St K := if c.tplfit && !c.svdlc && decide (1 < c.nCont) then { s with loaded := s.cont } else s
    have e0 : s1.ratio = s.ratio ∧ s1.table = s.table ∧ s1.best = s.best ∧ s1.loaded = some b.1 := by
      simp only [s1]
      by_cases hq : (c.tplfit && !c.svdlc && decide (1 < c.nCont)) = true
      · rw [if_pos hq]; exact ⟨rfl, rfl, rfl, hcont⟩
      · rw [if_neg hq]
        refine ⟨rfl, rfl, rfl, ?_⟩
        have hn : ¬ 1 < c.nCont := by
          intro hn
          obtain ⟨h1, h2⟩ := hsv hn
          simp [h1, h2, hn] at hq
        have hb1 := hd.1
        rw [h9 (by omega)]
        congr 1
        omega
    refine ⟨{ s1 with elts := some b, sol := some b }, b, ?_, h2, ?_, rfl, rfl, e0.2.2.2, ?_⟩
    · unfold fit
      rw [h1, Res.bind_ok]
      simp only [if_true, hc]
      change (resetBest s1 >>= _) = _
      unfold resetBest
      rw [e0.1, hrat, e0.2.1]
      simp only
      rw [Res.at_of_lt hbl, Res.bind_ok, Res.bind_ok, hsrc]
    · simp only; rw [e0.2.2.1, h3]; rfl
    · simp only; rw [e0.1, hrat]

/-- Three catalogs (the second with a dust index), two continua. -/
def exCfg : Cfg ℚ := ⟨true, 2, 3, false, fun r => if r = 1 then 1 else 0, true, false,
  fun k r => .ok (((if k = 0 then if r = 0 then 9 else if r = 1 then 7 else 8 else if r = 0 then 10 else if r = 1 then 7 else 5) : ℚ)), fun _ _ => 0⟩

/-- Example for C93: the best fit is the one of the second continuum with the third catalog. -/
example : ((fit exCfg true none).bind fun s => .ok (s.best, s.sol, s.elts, s.loaded)) =
    .ok (((5 : ℚ) : WithTop ℚ), some (1, 2), some (1, 2), some 1) := by decide +kernel

example : ((fit exCfg true none).bind fun s => .ok (s.table.map (·.src))) = .ok [some (0, 0), some (0, 1), some (1, 2)] := by decide +kernel

example : (∀ k r, k < exCfg.nCont → Fitted exCfg r → exCfg.merit k r = .ok (((if k = 0 then if r = 0 then 9 else if r = 1 then 7 else 8 else if r = 0 then 10 else if r = 1 then 7 else 5) : ℚ) : WithTop ℚ)) ∧
    (1 < exCfg.nCont → exCfg.tplfit = true ∧ exCfg.svdlc = false) := ⟨fun _ _ _ _ => rfl, fun _ => ⟨rfl, rfl⟩⟩

/-- Example: when the dust fit is disabled the second catalog gets the results of the first. -/
example : ((fit { exCfg with ismOff := true } true none).bind fun s => .ok (s.best, s.sol, s.table.map (·.src))) =
    .ok (((5 : ℚ) : WithTop ℚ), some (1, 2), [some (0, 0), some (0, 0), some (1, 2)]) := by decide +kernel

/-- **C93, priors: the property fails.** With a prior on the lines (prior 10 for the first catalog, 0 for the second) the fit keeps the first
catalog, of merit 5 and prior 10, although the second has merit 6 and no prior: the variable for the prior is never assigned. -/
theorem C93_prior_counterexample :
    let c : Cfg ℚ := ⟨true, 1, 2, false, fun _ => 0, false, false, fun _ r => .ok (if r = 0 then (5 : ℚ) else (6 : ℚ)), fun _ r => if r = 0 then 10 else 0⟩
    ((fit c true none).bind fun s => .ok (s.best, s.ratio, s.table.map fun e => e.merit + (e.prior : WithTop ℚ))) =
      .ok (((5 : ℚ) : WithTop ℚ), some 0, [((15 : ℚ) : WithTop ℚ), ((6 : ℚ) : WithTop ℚ)]) := by decide +kernel

/-- **C93, priors: the results are inconsistent.** One catalog and two continua, the second with the smaller merit but the larger prior: the
second continuum is loaded with the line amplitudes of the first, and the returned merit is that of neither. -/
theorem C93_mixed_counterexample :
    let c : Cfg ℚ := ⟨true, 2, 1, false, fun _ => 0, true, false, fun k _ => .ok (if k = 0 then (6 : ℚ) else (5 : ℚ)), fun k _ => if k = 0 then 0 else 10⟩
    ((fit c true none).bind fun s => .ok (s.best, s.elts, s.loaded)) = .ok (((5 : ℚ) : WithTop ℚ), some (0, 0), some 1) := by decide +kernel

/-- **C93, rules: the results are inconsistent.** With the line ratio type `rules` and two continua, the first better, the first continuum is
loaded again at the end but the elements keep the amplitudes fitted with the last one. -/
theorem C93_rules_counterexample :
    let c : Cfg ℚ := ⟨false, 2, 1, false, fun _ => 0, true, false, fun k _ => .ok (if k = 0 then (5 : ℚ) else (6 : ℚ)), fun _ _ => 0⟩
    ((fit c true none).bind fun s => .ok (s.best, s.sol, s.elts, s.loaded)) = .ok (((5 : ℚ) : WithTop ℚ), some (0, 0), some (1, 0), some 0) := by decide +kernel

/-- **C93, no finite merit.** If all merits are infinite (a null noise sample inside the range) a fit by catalogs with logging throws an internal error. -/
theorem C93_infinite (c : Cfg K) (m : Src → WithTop K) (hm : ∀ k r, k < c.nCont → Fitted c r → c.merit k r = .ok (m (k, r)))
    (hc : c.ratio = true) (elts : Option Src) (hinf : ∀ a, Done c a → m a = ⊤) : fit c true elts = .throw .INTERNAL_ERROR := by
  obtain ⟨s, h1, h2, h3, h4, h5, h6⟩ := loops_inv c m hm elts
  have hs : s.sol = none := by
    cases hs : s.sol with
    | none => rfl
    | some b => rw [hs] at h2; exact absurd (hinf b h2.mem) h2.fin
  have hr : s.ratio = none := by rw [h5, hs]; simp
  unfold fit
  rw [h1, Res.bind_ok]
  simp only [if_true, hc]
  have : (if (c.tplfit && !c.svdlc && decide (1 < c.nCont)) = true then { s with loaded := s.cont } else s).ratio = none := by
    split <;> exact hr
  unfold resetBest
  rw [this]
  rfl

end TplRatio
end Amazed
