import Verif.Model.LmatchSolve
import Mathlib.Algebra.Order.Archimedean.Basic
import Mathlib.Algebra.Order.Floor.Semiring
import Mathlib.Data.Prod.Lex
import Mathlib.Tactic.Linarith
import Mathlib.Tactic.NormNum
import Mathlib.Tactic.FieldSimp

/-!
# C152: the search of the line matching solver
-/

set_option linter.unusedSectionVars false
set_option linter.unusedVariables false

namespace Amazed
namespace LmatchSolve

variable {K : Type} [Field K] [LinearOrder K] {D M : Type}

/-! ## Specification -/

/-- The parameters of the `k`-th detection of the sweep of the dynamic mode, `none` after its end. -/
def sweep (p : Par K) : Nat → Option (Par K)
  | 0 => some p
  | k + 1 => (sweep p k).bind fun q => (nextPar q).map Prod.fst

/-- The sweep has `n` sets of parameters. -/
def SweepLength (p : Par K) (n : Nat) : Prop := (∀ k, k < n → sweep p k ≠ none) ∧ sweep p n = none

/-- `q` follows `p` when only the minimum width is reduced. -/
def Narrowed (p q : Par K) : Prop := 1 / 1000 < p.fwhh ∧ q = { p with fwhh := max2 (1 / 1000) (p.fwhh - (10 - 1 / 1000) / 5) }

/-- One step of the sweep: the minimum width is reduced; else it is set to 10 and the cut is reduced; else the cut is set to the strong cut, and the strong cut
reduced; else the strong cut is set to 10 and the window size is increased. -/
def Follows (p q : Par K) : Prop :=
  (1 / 1000 < p.fwhh ∧ q = ⟨p.cut, max2 (1 / 1000) (p.fwhh - (10 - 1 / 1000) / 5), p.strong, p.win⟩) ∨
  (p.fwhh ≤ 1 / 1000 ∧ 1 / 10 ≤ p.cut ∧ q = ⟨p.cut - (10 - 1 / 10) / 5, 10, p.strong, p.win⟩) ∨
  (p.fwhh ≤ 1 / 1000 ∧ p.cut < 1 / 10 ∧ 1 / 100 < p.strong ∧ q = ⟨p.strong, 10, max2 (1 / 100) (p.strong - (10 - 1 / 100) / 5), p.win⟩) ∨
  (p.fwhh ≤ 1 / 1000 ∧ p.cut < 1 / 10 ∧ p.strong ≤ 1 / 100 ∧ p.win ≤ 10000 ∧ q = ⟨p.strong, 10, 10, p.win + (10000 - 1000) / 5⟩)

/-- **C152** The sweep reduces first the width, then the cut, the strong cut and increases last the window; it ends when no parameter may be changed. -/
theorem C152_sweep (p : Par K) :
    (∀ k q, sweep p k = some q → ∀ r, sweep p (k + 1) = some r ↔ Follows q r) ∧
    (∀ k q, sweep p k = some q → (sweep p (k + 1) = none ↔ q.fwhh ≤ 1 / 1000 ∧ q.cut < 1 / 10 ∧ q.strong ≤ 1 / 100 ∧ 10000 < q.win)) := by
  have key : ∀ q r : Par K, (nextPar q).map Prod.fst = some r ↔ Follows q r := by
    intro q r
    unfold nextPar stepFwhh stepCut stepStrong stepWin Follows
    by_cases h1 : 1 / 1000 < q.fwhh
    · simp [-one_div, h1, not_le.2 h1, @eq_comm _ r]
    · by_cases h2 : 1 / 10 ≤ q.cut
      · simp [-one_div, h1, not_lt.1 h1, h2, not_lt.2 h2, @eq_comm _ r]
      · by_cases h3 : 1 / 100 < q.strong
        · simp [-one_div, h1, not_lt.1 h1, h2, not_le.1 h2, h3, not_le.2 h3, @eq_comm _ r]
        · by_cases h4 : q.win ≤ 10000
          · simp [-one_div, h1, not_lt.1 h1, h2, not_le.1 h2, h3, not_lt.1 h3, h4, @eq_comm _ r]
          · simp [-one_div, h1, not_lt.1 h1, h2, not_le.1 h2, h3, not_lt.1 h3, h4]
  constructor
  · intro k q h r
    rw [sweep, h, Option.bind_some, key]
  · intro k q h
    rw [sweep, h, Option.bind_some, Option.map_eq_none_iff]
    unfold nextPar stepFwhh stepCut stepStrong stepWin
    by_cases h1 : 1 / 1000 < q.fwhh
    · simp [-one_div, h1, not_le.2 h1]
    · by_cases h2 : 1 / 10 ≤ q.cut
      · simp [-one_div, h1, h2, not_lt.2 h2]
      · by_cases h3 : 1 / 100 < q.strong
        · simp [-one_div, h1, h2, h3, not_le.2 h3]
        · by_cases h4 : q.win ≤ 10000
          · simp [-one_div, h1, h2, h3, h4, not_lt.2 h4]
          · simp [-one_div, h1, not_lt.1 h1, h2, not_le.1 h2, h3, not_lt.1 h3, h4, not_le.1 h4]

/-! ## The invariant of the loop -/

/-- The state after `k` iterations. -/
structure Inv (e : Env K D M) (k : Nat) (s : St K D M) : Prop where
  cmpt : s.iCmpt = 0
  len : s.tried.length = k
  real : ∀ x ∈ s.tried, ∃ d, e.detect x.1 = .ok d ∧ e.count d = x.2
  bestN : (s.tried = [] ∧ s.bestN = -1) ∨ ∃ n : Nat, s.bestN = n ∧ (s.best, n) ∈ s.tried
  max : ∀ x ∈ s.tried, (x.2 : Int) ≤ s.bestN
  free : s.bypass = false → sweep e.par k = some s.cur ∧ ∀ j x, s.tried[j]? = some x → sweep e.par j = some x.1
  byp : s.bypass = true → ∃ k0, 0 < k0 ∧ k0 ≤ k ∧ SweepLength e.par k0 ∧ (∀ j, j < k0 → (s.tried[j]?).map Prod.fst = sweep e.par j) ∧
    ∃ b n, (s.tried.map Prod.fst ++ [s.cur])[k0]? = some b ∧ (b, n) ∈ s.tried.take k0 ∧ ∀ x ∈ s.tried.take k0, x.2 ≤ n
  prev : (s.tried = [] ∧ s.prevN = -1) ∨ ∃ p n, s.tried.getLast? = some (p, n) ∧ s.prevN = n ∧ (s.newValues = false → Narrowed p s.cur)

theorem init_inv (e : Env K D M) : Inv e 0 (init e) := by
  refine ⟨rfl, rfl, by simp [init], Or.inl ⟨rfl, rfl⟩, by simp [init], fun _ => ⟨rfl, by simp [init]⟩, by simp [init], Or.inl ⟨rfl, rfl⟩⟩

theorem sweep_none {p : Par K} {k : Nat} (h : sweep p k = none) : ∀ j, k ≤ j → sweep p j = none := by
  intro j hj
  induction j with
  | zero => have : k = 0 := by omega
            subst this; exact h
  | succ j ih =>
    by_cases he : k = j + 1
    · subst he; exact h
    · rw [sweep, ih (by omega)]; rfl

theorem nextPar_false {p q : Par K} (h : nextPar p = some (q, false)) : Narrowed p q := by
  unfold nextPar at h
  have hs : stepFwhh p = some q := by
    cases h1 : stepFwhh p with
    | some r => rw [h1] at h; simp only [Option.some.injEq, Prod.mk.injEq] at h; rw [h.1]
    | none =>
      rw [h1] at h
      simp only at h
      split at h
      · simp at h
      · split at h
        · simp at h
        · rw [Option.map_eq_some_iff] at h
          obtain ⟨_, _, h⟩ := h
          simp at h
  unfold stepFwhh at hs
  split at hs
  · rename_i h1
    exact ⟨h1, by simpa using hs.symm⟩
  · simp at hs

/-- The state given to `update`: the lines have just been counted. -/
def counted (s s0 : St K D M) (n : Nat) : Prop :=
  s.cur = s0.cur ∧ s.best = s0.best ∧ s.bestN = s0.bestN ∧ s.prevN = s0.prevN ∧ s.newValues = s0.newValues ∧ s.bypass = s0.bypass ∧ s.iCmpt = s0.iCmpt ∧
    s.tried = s0.tried ++ [(s0.cur, n)]

theorem keepBest_fields (n : Nat) (s : St K D M) :
    (keepBest n s).cur = s.cur ∧ (keepBest n s).prevN = s.prevN ∧ (keepBest n s).newValues = s.newValues ∧ (keepBest n s).bypass = s.bypass ∧
    (keepBest n s).iCmpt = s.iCmpt ∧ (keepBest n s).tried = s.tried ∧
    (keepBest n s).best = (if s.bestN ≤ n then s.cur else s.best) ∧ (keepBest n s).bestN = (if s.bestN ≤ n then (n : Int) else s.bestN) := by
  unfold keepBest
  split <;> simp

theorem update_inv {e : Env K D M} {k n : Nat} {s0 s : St K D M} {d : D} (hI : Inv e k s0) (hd : e.detect s0.cur = .ok d) (hn : e.count d = n)
    (hc : counted s s0 n) :
    (∃ s', update e n s = .ok (.running s') ∧ Inv e (k + 1) s') ∨
    (update e n s = .throw .INTERNAL_ERROR ∧ (e.dynamic = false ∨
      ∃ p m, s0.tried.getLast? = some (p, m) ∧ Narrowed p s0.cur ∧ n < m)) := by
  obtain ⟨c1, c2, c3, c4, c5, c6, c7, c8⟩ := hc
  obtain ⟨k1, k2, k3, k4, k5, k6, k7, k8⟩ := keepBest_fields n s
  unfold update
  simp only
  by_cases h1 : (n : Int) < (keepBest n s).prevN ∧ (keepBest n s).newValues = false
  · right
    rw [if_pos h1]
    refine ⟨rfl, Or.inr ?_⟩
    rw [k2, k3, c4, c5] at h1
    rcases hI.prev with ⟨_, q⟩ | ⟨p, m, q1, q2, q3⟩
    · omega
    · exact ⟨p, m, q1, q3 h1.2, by omega⟩
  · rw [if_neg h1]
    by_cases h2 : e.dynamic = false
    · right; rw [if_pos h2]; exact ⟨rfl, Or.inl h2⟩
    · left
      rw [if_neg h2]
      have hreal : ∀ x ∈ (keepBest n s).tried, ∃ d, e.detect x.1 = .ok d ∧ e.count d = x.2 := by
        rw [k6, c8]
        intro x hx
        rcases List.mem_append.1 hx with hx | hx
        · exact hI.real x hx
        · rw [List.mem_singleton] at hx; subst hx; exact ⟨d, hd, hn⟩
      have hlen : (keepBest n s).tried.length = k + 1 := by rw [k6, c8]; simp [hI.len]
      have hB : ∃ m : Nat, (keepBest n s).bestN = m ∧ ((keepBest n s).best, m) ∈ (keepBest n s).tried := by
        rw [k8, k7, k6, c8, c3, c2, c1]
        split
        · exact ⟨n, rfl, by simp⟩
        · rename_i hlt
          rcases hI.bestN with ⟨_, q⟩ | ⟨m, q1, q2⟩
          · omega
          · exact ⟨m, q1, by simp [q2]⟩
      have hM : ∀ x ∈ (keepBest n s).tried, (x.2 : Int) ≤ (keepBest n s).bestN := by
        rw [k8, k6, c8, c3]
        intro x hx
        rcases List.mem_append.1 hx with hx | hx
        · have := hI.max x hx
          split <;> omega
        · rw [List.mem_singleton] at hx; subst hx
          simp only
          split <;> omega
      have hlast : (keepBest n s).tried.getLast? = some (s0.cur, n) := by rw [k6, c8]; simp
      have hcur : (keepBest n s).cur = s0.cur := by rw [k1, c1]
      have hfree : s0.bypass = false → ∀ j x, (keepBest n s).tried[j]? = some x → sweep e.par j = some x.1 := by
        intro hb j x hx
        rw [k6, c8] at hx
        by_cases hj : j < k
        · rw [List.getElem?_append_left (by rw [hI.len]; exact hj)] at hx
          exact (hI.free hb).2 j x hx
        · have hj' : j < k + 1 := by
            have := (List.getElem?_eq_some_iff.1 hx).1
            rw [List.length_append, hI.len] at this
            simpa using this
          have : j = k := by omega
          subst this
          rw [List.getElem?_append_right (by rw [hI.len]), hI.len] at hx
          simp at hx
          rw [← hx]; exact (hI.free hb).1
      have hbypOld : s0.bypass = true → ∀ c : Par K, ∃ k0, 0 < k0 ∧ k0 ≤ k + 1 ∧ SweepLength e.par k0 ∧
          (∀ j, j < k0 → ((keepBest n s).tried[j]?).map Prod.fst = sweep e.par j) ∧
          ∃ b n', ((keepBest n s).tried.map Prod.fst ++ [c])[k0]? = some b ∧ (b, n') ∈ (keepBest n s).tried.take k0 ∧
            ∀ x ∈ (keepBest n s).tried.take k0, x.2 ≤ n' := by
        intro hb c
        obtain ⟨k0, q0, q1, q2, q3, b, n', q4, q5, q6⟩ := hI.byp hb
        have ht : (keepBest n s).tried.take k0 = s0.tried.take k0 := by
          rw [k6, c8, List.take_append_of_le_length (by rw [hI.len]; exact q1)]
        refine ⟨k0, q0, by omega, q2, ?_, b, n', ?_, by rw [ht]; exact q5, by rw [ht]; exact q6⟩
        · intro j hj
          rw [k6, c8, List.getElem?_append_left (by rw [hI.len]; omega)]
          exact q3 j hj
        · rw [k6, c8, List.map_append, List.map_cons, List.map_nil,
            List.getElem?_append_left (by simp [hI.len]; omega)]
          exact q4
      cases hx : nextPar (keepBest n s).cur with
      | some q =>
        refine ⟨_, rfl, ?_⟩
        rw [hcur] at hx
        refine ⟨?_, hlen, hreal, Or.inr hB, hM, ?_, ?_, Or.inr ⟨s0.cur, n, hlast, rfl, ?_⟩⟩
        · show (keepBest n s).iCmpt = 0
          rw [k5, c7, hI.cmpt]
        · intro hb
          have hb : s0.bypass = false := by rw [← c6, ← k4]; exact hb
          refine ⟨?_, hfree hb⟩
          rw [sweep, (hI.free hb).1, Option.bind_some, hx]; rfl
        · intro hb
          have hb : s0.bypass = true := by rw [← c6, ← k4]; exact hb
          exact hbypOld hb _
        · intro hv
          have hv : q.2 = false := hv
          have : q = (q.1, false) := by rw [← hv]
          rw [this] at hx
          exact nextPar_false hx
      | none =>
        refine ⟨_, rfl, ?_⟩
        rw [hcur] at hx
        refine ⟨?_, hlen, hreal, Or.inr hB, hM, ?_, ?_, Or.inr ⟨s0.cur, n, hlast, rfl, ?_⟩⟩
        · show (keepBest n s).iCmpt = 0
          rw [k5, c7, hI.cmpt]
        · intro hb; simp at hb
        · intro _
          by_cases hb : s0.bypass = true
          · exact hbypOld hb _
          · have hb : s0.bypass = false := by simpa using hb
            obtain ⟨m, hm1, hm2⟩ := hB
            have htk : (keepBest n s).tried.take (k + 1) = (keepBest n s).tried := List.take_of_length_le (by rw [hlen])
            refine ⟨k + 1, by omega, le_refl _, ⟨?_, ?_⟩, ?_, (keepBest n s).best, m, ?_, ?_, ?_⟩
            · intro j hj hsw
              have := sweep_none hsw k (by omega)
              rw [(hI.free hb).1] at this
              cases this
            · rw [sweep, (hI.free hb).1, Option.bind_some, hx]; rfl
            · intro j hj
              have hj' : j < (keepBest n s).tried.length := by rw [hlen]; exact hj
              have := hfree hb j _ (List.getElem?_eq_getElem hj')
              show ((keepBest n s).tried[j]?).map Prod.fst = _
              rw [this, List.getElem?_eq_getElem hj']; rfl
            · show ((keepBest n s).tried.map Prod.fst ++ [(keepBest n s).best])[k + 1]? = _
              rw [List.getElem?_append_right (by simp [hlen])]
              simp [hlen]
            · show _ ∈ (keepBest n s).tried.take (k + 1)
              rw [htk]; exact hm2
            · intro x hx'
              have hx' : x ∈ (keepBest n s).tried.take (k + 1) := hx'
              rw [htk] at hx'
              have := hM x hx'
              omega
        · intro hv; simp at hv

theorem tryMatch_counted (e : Env K D M) (d : D) (s s0 : St K D M) (n : Nat) (h : counted s s0 n) : counted (tryMatch e d s).1 s0 n := by
  unfold tryMatch
  split <;> exact h

/-- What the iteration of number `k` (from 0) may do. -/
theorem iter_inv {e : Env K D M} {k : Nat} {s : St K D M} (hI : Inv e k s) :
    (e.detect s.cur = .ub ∧ iter e s = .ub) ∨ (∃ er, e.detect s.cur = .throw er ∧ iter e s = .throw er) ∨
    ∃ d, e.detect s.cur = .ok d ∧
      ((∃ s', iter e s = .ok (.running s') ∧ Inv e (k + 1) s') ∨
       (iter e s = .throw .INTERNAL_ERROR ∧ e.dynamic = true ∧ ∃ p m, s.tried.getLast? = some (p, m) ∧ Narrowed p s.cur ∧ e.count d < m) ∨
       (e.dynamic = true ∧ ∃ m, e.matching d = some m ∧ e.redshift m ≠ -1 ∧ (200 ≤ e.count d ∨ s.bypass = true) ∧
         iter e s = .ok (.done ⟨some d, some m, false, k + 1⟩)) ∨
       (e.dynamic = false ∧ iter e s = .ok (.done ⟨some d, (e.matching d).or s.result, false, k + 1⟩))) := by
  unfold iter
  cases hd : e.detect s.cur with
  | ub => left; exact ⟨rfl, rfl⟩
  | throw er => right; left; exact ⟨er, rfl, rfl⟩
  | ok d =>
    right; right
    refine ⟨d, rfl, ?_⟩
    rw [Res.bind_ok]
    simp only
    set s1 : St K D M := { s with tried := s.tried ++ [(s.cur, e.count d)] } with hs1
    have hc : counted s1 s (e.count d) := ⟨rfl, rfl, rfl, rfl, rfl, rfl, rfl, rfl⟩
    have hl : s1.tried.length = k + 1 := by simp [s1, hI.len]
    by_cases h1 : 200 ≤ e.count d ∨ s1.bypass = true ∨ e.dynamic = false
    · rw [if_pos h1]
      by_cases h2 : (tryMatch e d s1).2 = true
      · rw [if_pos h2]
        cases hdy : e.dynamic with
        | true =>
          right; right; left
          refine ⟨rfl, ?_⟩
          unfold tryMatch at h2 ⊢
          cases hm : e.matching d with
          | none => rw [hm] at h2; simp [hdy] at h2
          | some m =>
            rw [hm] at h2
            refine ⟨m, rfl, by simpa [hdy] using h2, ?_, by simp only; rw [hl]⟩
            rcases h1 with h1 | h1 | h1
            · exact Or.inl h1
            · exact Or.inr h1
            · rw [hdy] at h1; cases h1
        | false =>
          right; right; right
          refine ⟨rfl, ?_⟩
          unfold tryMatch
          cases hm : e.matching d with
          | none => simp only [Option.none_or]; rw [hl]
          | some m => simp only [Option.some_or]; rw [hl]
      · rw [if_neg h2]
        rcases update_inv hI hd rfl (tryMatch_counted e d s1 s _ hc) with h | ⟨h, hx⟩
        · exact Or.inl h
        · cases hdy : e.dynamic with
          | true =>
            right; left
            refine ⟨h, rfl, ?_⟩
            rcases hx with hx | hx
            · rw [hdy] at hx; cases hx
            · exact hx
          | false =>
            exfalso
            apply h2
            unfold tryMatch
            split <;> simp [hdy]
    · rw [if_neg h1]
      have hdy : e.dynamic = true := by
        cases hdy : e.dynamic with
        | true => rfl
        | false => exact absurd (Or.inr (Or.inr hdy)) h1
      rcases update_inv hI hd rfl hc with h | ⟨h, hx⟩
      · exact Or.inl h
      · right; left
        refine ⟨h, hdy, ?_⟩
        rcases hx with hx | hx
        · rw [hdy] at hx; cases hx
        · exact hx

theorem run_step {e : Env K D M} {k fuel : Nat} {s : St K D M} (hI : Inv e k s) :
    run e (fuel + 1) s = (iter e s >>= fun p => match p with | .running s' => run e fuel s' | .done o => .ok (.done o)) := by
  rw [run, if_pos (by rw [hI.cmpt]; omega)]
  congr 1

/-- The run from the state after `k` iterations. -/
theorem run_inv (e : Env K D M) : ∀ (fuel k : Nat) (s : St K D M), Inv e k s →
    (run e fuel s = .ub ∧ ∃ p, e.detect p = .ub) ∨
    (∃ s', run e fuel s = .ok (.running s') ∧ Inv e (k + fuel) s') ∨
    (∃ j s', j < fuel ∧ run e j s = .ok (.running s') ∧ Inv e (k + j) s' ∧
      ((∃ er, run e fuel s = .throw er ∧ e.detect s'.cur = .throw er) ∨
       ∃ d, e.detect s'.cur = .ok d ∧
        ((run e fuel s = .throw .INTERNAL_ERROR ∧ e.dynamic = true ∧ ∃ p m, s'.tried.getLast? = some (p, m) ∧ Narrowed p s'.cur ∧ e.count d < m) ∨
         (e.dynamic = true ∧ ∃ m, e.matching d = some m ∧ e.redshift m ≠ -1 ∧ (200 ≤ e.count d ∨ s'.bypass = true) ∧
           run e fuel s = .ok (.done ⟨some d, some m, false, k + j + 1⟩)) ∨
         (e.dynamic = false ∧ run e fuel s = .ok (.done ⟨some d, (e.matching d).or s'.result, false, k + j + 1⟩))))) := by
  intro fuel
  induction fuel with
  | zero => intro k s hI; right; left; exact ⟨s, rfl, hI⟩
  | succ fuel ih =>
    intro k s hI
    rcases iter_inv hI with ⟨h1, h2⟩ | ⟨er, h1, h2⟩ | ⟨d, h1, ⟨s', h2, h3⟩ | ⟨h2, h3⟩ | ⟨h2, m, h3, h4, h5, h6⟩ | ⟨h2, h3⟩⟩
    · left; rw [run_step hI, h2]; exact ⟨rfl, _, h1⟩
    · right; right
      refine ⟨0, s, by omega, rfl, hI, Or.inl ⟨er, ?_, h1⟩⟩
      rw [run_step hI, h2]; rfl
    · have hr : ∀ f, run e (f + 1) s = run e f s' := by intro f; rw [run_step hI, h2, Res.bind_ok]
      rw [hr]
      rcases ih (k + 1) s' h3 with g | ⟨t, g1, g2⟩ | ⟨j, t, g1, g2, g3, g4⟩
      · exact Or.inl g
      · right; left
        exact ⟨t, g1, by rw [show k + (fuel + 1) = k + 1 + fuel by omega]; exact g2⟩
      · right; right
        rw [show k + 1 + j = k + (j + 1) by omega] at g3 g4
        exact ⟨j + 1, t, by omega, by rw [hr]; exact g2, g3, g4⟩
    · right; right
      refine ⟨0, s, by omega, rfl, hI, Or.inr ⟨d, h1, Or.inl ⟨?_, h3⟩⟩⟩
      rw [run_step hI, h2]; rfl
    · right; right
      refine ⟨0, s, by omega, rfl, hI, Or.inr ⟨d, h1, Or.inr (Or.inl ⟨h2, m, h3, h4, h5, ?_⟩)⟩⟩
      rw [run_step hI, h6]; rfl
    · right; right
      refine ⟨0, s, by omega, rfl, hI, Or.inr ⟨d, h1, Or.inr (Or.inr ⟨h2, ?_⟩)⟩⟩
      rw [run_step hI, h3]; rfl

/-! ## C152 -/

/-- **C152** Without the dynamic mode, the lines are detected once, with the configured parameters; the catalogue of lines is always published, the matching
when there is one, and the method ends, whether a redshift is found or not, and without a warning. -/
theorem C152_static (e : Env K D M) (hd : e.dynamic = false) (fuel : Nat) :
    run e (fuel + 1) (init e) = (e.detect e.par >>= fun d => .ok (.done ⟨some d, e.matching d, false, 1⟩)) := by
  rw [run_step (init_inv e)]
  rcases iter_inv (init_inv e) with ⟨h1, h2⟩ | ⟨er, h1, h2⟩ | ⟨d, h1, ⟨s', h2, h3⟩ | ⟨h2, h3, _⟩ | ⟨h2, _⟩ | ⟨h2, h3⟩⟩
  · rw [h2, show e.detect e.par = _ from h1]; rfl
  · rw [h2, show e.detect e.par = _ from h1]; rfl
  · exfalso
    unfold iter at h2
    rw [h1, Res.bind_ok] at h2
    simp only at h2
    rw [if_pos (Or.inr (Or.inr hd))] at h2
    split at h2
    · cases h2
    · unfold update at h2
      simp only at h2
      split at h2
      · cases h2
      · simp at h2
  · rw [hd] at h3; cases h3
  · rw [hd] at h2; cases h2
  · rw [h3, show e.detect e.par = _ from h1]
    simp [init]

/-- **C152** The dynamic mode ends with a redshift only: the published lines are those of one of the detections, their matching is published and has a redshift,
and either there are at least 200 lines, or all the parameters of the sweep have been tried before. The warning of the limit is never raised. -/
theorem C152_return (e : Env K D M) (hd : e.dynamic = true) {fuel : Nat} {o : Out D M} (h : run e fuel (init e) = .ok (.done o)) :
    o.warned = false ∧ ∃ p d m, e.detect p = .ok d ∧ o.catalog = some d ∧ e.matching d = some m ∧ o.result = some m ∧ e.redshift m ≠ -1 ∧
      (200 ≤ e.count d ∨ ∃ n, SweepLength e.par n ∧ n < o.detections ∧ ∀ k, k < n → ∃ q d', sweep e.par k = some q ∧ e.detect q = .ok d') := by
  rcases run_inv e fuel 0 _ (init_inv e) with ⟨g, _⟩ | ⟨s', g, _⟩ | ⟨j, s', g1, g2, g3, ⟨er, g, _⟩ | ⟨d, g4, ⟨g, _⟩ | ⟨g5, m, g6, g7, g8, g⟩ | ⟨g, _⟩⟩⟩
  · rw [g] at h; cases h
  · rw [g] at h; cases h
  · rw [g] at h; cases h
  · rw [g] at h; cases h
  · rw [g] at h
    cases h
    refine ⟨rfl, s'.cur, d, m, g4, rfl, g6, rfl, g7, ?_⟩
    rcases g8 with g8 | g8
    · exact Or.inl g8
    · obtain ⟨k0, q0, q1, q2, q3, _⟩ := g3.byp g8
      refine Or.inr ⟨k0, q2, by show k0 < 0 + j + 1; omega, fun k hk => ?_⟩
      have hk' : k < s'.tried.length := by rw [g3.len]; omega
      obtain ⟨d', hd', _⟩ := g3.real _ (List.getElem_mem hk')
      refine ⟨_, d', ?_, hd'⟩
      rw [← q3 k hk, List.getElem?_eq_getElem hk']; rfl
  · rw [hd] at g; cases g

/-- **C152** The number of tries is not limited: the counter which should stop the search after 100 tries stays at zero, and as long as no detection gives
a redshift the dynamic mode never returns. -/
theorem C152_never (e : Env K D M) (hd : e.dynamic = true) (hno : ∀ p d m, e.detect p = .ok d → e.matching d = some m → e.redshift m = -1) (fuel : Nat) :
    (∀ o, run e fuel (init e) ≠ .ok (.done o)) ∧
    ∀ s, run e fuel (init e) = .ok (.running s) → s.iCmpt = 0 ∧ s.tried.length = fuel := by
  constructor
  · intro o h
    obtain ⟨_, p, d, m, h1, _, h2, _, h3, _⟩ := C152_return e hd h
    exact h3 (hno p d m h1 h2)
  · intro s h
    rcases run_inv e fuel 0 _ (init_inv e) with ⟨g, _⟩ | ⟨s', g, g'⟩ | ⟨j, s', g1, g2, g3, ⟨er, g, _⟩ | ⟨d, g4, ⟨g, _⟩ | ⟨g5, m, g6, g7, g8, g⟩ | ⟨g, _⟩⟩⟩
    · rw [g] at h; cases h
    · rw [g] at h; cases h
      exact ⟨g'.cmpt, by rw [g'.len]; omega⟩
    · rw [g] at h; cases h
    · rw [g] at h; cases h
    · rw [g] at h; cases h
    · rw [hd] at g; cases g

/-- **C152** In particular a spectrum in which every detection finds the same number of lines, without a match, is searched for ever. -/
theorem C152_endless (e : Env K D M) (hd : e.dynamic = true) (n : Nat) (hdet : ∀ p, ∃ d, e.detect p = .ok d ∧ e.count d = n)
    (hno : ∀ d, e.matching d = none) (fuel : Nat) : ∃ s, run e fuel (init e) = .ok (.running s) ∧ s.tried.length = fuel := by
  rcases run_inv e fuel 0 _ (init_inv e) with ⟨g, p, g'⟩ | ⟨s', g, g'⟩ | ⟨j, s', g1, g2, g3, ⟨er, g, g'⟩ | ⟨d, g4, ⟨g, _, p, m, g6, g7, g8⟩ | ⟨g5, m, g6, g7, g8, g⟩ | ⟨g, _⟩⟩⟩
  · obtain ⟨d, h, _⟩ := hdet p
    rw [g'] at h; cases h
  · exact ⟨s', g, by rw [g'.len]; omega⟩
  · obtain ⟨d, h, _⟩ := hdet s'.cur
    rw [g'] at h; cases h
  · exfalso
    obtain ⟨d', h1, h2⟩ := hdet s'.cur
    rw [g4] at h1
    cases h1
    obtain ⟨d'', h3, h4⟩ := g3.real (p, m) (List.mem_of_getLast? g6)
    obtain ⟨d3, h5, h6⟩ := hdet p
    simp only at h3
    rw [h3] at h5
    cases h5
    simp only at h4
    omega
  · rw [hno] at g6; cases g6
  · rw [hd] at g; cases g

/-- **C152** The search fails only when a detection does, or when it finds less lines than the detection just before it although only the minimum width was
reduced in between. -/
theorem C152_error (e : Env K D M) {fuel : Nat} {er : Err} (h : run e fuel (init e) = .throw er) :
    (∃ p, e.detect p = .throw er) ∨
    (er = .INTERNAL_ERROR ∧ e.dynamic = true ∧ ∃ p q dp dq, Narrowed p q ∧ e.detect p = .ok dp ∧ e.detect q = .ok dq ∧ e.count dq < e.count dp) := by
  rcases run_inv e fuel 0 _ (init_inv e) with ⟨g, _⟩ | ⟨s', g, g'⟩ | ⟨j, s', g1, g2, g3, ⟨er', g, g'⟩ | ⟨d, g4, ⟨g, g5, p, m, g6, g7, g8⟩ | ⟨g5, m, g6, g7, g8, g⟩ | ⟨_, g⟩⟩⟩
  · rw [g] at h; cases h
  · rw [g] at h; cases h
  · rw [g] at h; cases h; exact Or.inl ⟨_, g'⟩
  · rw [g] at h; cases h
    right
    obtain ⟨d', h3, h4⟩ := g3.real (p, m) (List.mem_of_getLast? g6)
    exact ⟨rfl, g5, p, s'.cur, d', d, g7, h3, g4, by simp only at h4; omega⟩
  · rw [g] at h; cases h
  · rw [g] at h; cases h

/-- **C152** Before the end of the sweep the parameters of the detections are those of the sweep, in order; the first detection after its end is made with
parameters of the sweep which gave the largest number of lines. -/
theorem C152_best (e : Env K D M) {fuel : Nat} {s : St K D M} (h : run e fuel (init e) = .ok (.running s)) :
    (∀ n, SweepLength e.par n → ∀ k, k < n → k < fuel → (s.tried[k]?).map Prod.fst = sweep e.par k) ∧
    ∀ n, SweepLength e.par n → n < fuel → ∃ b m, (s.tried[n]?).map Prod.fst = some b ∧ (b, m) ∈ s.tried.take n ∧ ∀ x ∈ s.tried.take n, x.2 ≤ m := by
  have hinv : Inv e fuel s := by
    rcases run_inv e fuel 0 _ (init_inv e) with ⟨g, _⟩ | ⟨s', g, g'⟩ | ⟨j, s', g1, g2, g3, ⟨er, g, _⟩ | ⟨d, g4, ⟨g, _⟩ | ⟨g5, m, g6, g7, g8, g⟩ | ⟨_, g⟩⟩⟩
    · rw [g] at h; cases h
    · rw [g] at h; cases h; rw [Nat.zero_add] at g'; exact g'
    · rw [g] at h; cases h
    · rw [g] at h; cases h
    · rw [g] at h; cases h
    · rw [g] at h; cases h
  have huniq : ∀ n m, SweepLength e.par n → SweepLength e.par m → n = m := by
    intro n m h1 h2
    rcases Nat.lt_trichotomy n m with hlt | he | hlt
    · exact absurd h1.2 (h2.1 n hlt)
    · exact he
    · exact absurd h2.2 (h1.1 m hlt)
  constructor
  · intro n hn k hk hkf
    cases hb : s.bypass with
    | true =>
      obtain ⟨k0, q0, q1, q2, q3, _⟩ := hinv.byp hb
      exact q3 k (by rw [huniq _ _ q2 hn]; exact hk)
    | false =>
      have hk' : k < s.tried.length := by rw [hinv.len]; exact hkf
      rw [(hinv.free hb).2 k _ (List.getElem?_eq_getElem hk'), List.getElem?_eq_getElem hk']; rfl
  · intro n hn hnf
    cases hb : s.bypass with
    | true =>
      obtain ⟨k0, q0, q1, q2, q3, b, m, q4, q5, q6⟩ := hinv.byp hb
      have : k0 = n := huniq _ _ q2 hn
      subst this
      refine ⟨b, m, ?_, q5, q6⟩
      rw [List.getElem?_append_left (by simp [hinv.len]; exact hnf)] at q4
      simpa using q4
    | false =>
      exfalso
      have h1 := (hinv.free hb).1
      rw [sweep_none hn.2 fuel (by omega)] at h1
      cases h1

/-! ## The sweep ends -/

variable [IsStrictOrderedRing K] [FloorRing K]

/-- The number of steps left, for each parameter. -/
def meas (p : Par K) : ℕ ×ₗ ℕ ×ₗ ℕ ×ₗ ℕ :=
  toLex (⌊(10000 - p.win) / 1800 + 1⌋₊, toLex (⌈(p.strong - 1 / 100) / (999 / 500)⌉₊,
    toLex (⌊(p.cut - 1 / 10) / (99 / 50) + 1⌋₊, ⌈(p.fwhh - 1 / 1000) / (9999 / 5000)⌉₊)))

theorem ceil_dec {x lo st : K} (hs : 0 < st) (hx : lo < x) : ⌈(max2 lo (x - st) - lo) / st⌉₊ < ⌈(x - lo) / st⌉₊ := by
  have hpos : 0 < (x - lo) / st := div_pos (by linarith) hs
  unfold max2
  split
  · rename_i h
    have he : (x - lo) / st = (x - st - lo) / st + 1 := by field_simp; ring
    rw [he, Nat.ceil_add_one (div_nonneg (by linarith) hs.le)]
    omega
  · rw [sub_self, zero_div, Nat.ceil_zero]
    exact Nat.ceil_pos.2 hpos

theorem floor_dec {x st : K} (hs : 0 < st) (hx : 0 ≤ x) : ⌊(x - st) / st + 1⌋₊ < ⌊x / st + 1⌋₊ := by
  have h : (x - st) / st + 1 = x / st := by field_simp; ring
  rw [h, Nat.floor_add_one (div_nonneg hx hs.le)]
  omega

theorem nextPar_dec {p : Par K} {q : Par K × Bool} (h : nextPar p = some q) : meas q.1 < meas p := by
  unfold nextPar at h
  cases h1 : stepFwhh p with
  | some r =>
    rw [h1] at h
    simp only [Option.some.injEq] at h
    subst h
    unfold stepFwhh at h1
    split at h1
    · rename_i hc
      simp only [Option.some.injEq] at h1
      subst h1
      have := ceil_dec (x := p.fwhh) (lo := 1 / 1000) (st := 9999 / 5000) (by norm_num) hc
      rw [show (10 - 1 / 1000 : K) / 5 = 9999 / 5000 by norm_num]
      simp only [meas, Prod.Lex.toLex_lt_toLex]
      simpa using this
    · cases h1
  | none =>
    rw [h1] at h
    simp only at h
    cases h2 : stepCut { p with fwhh := (10 : K) } with
    | some r =>
      rw [h2] at h
      simp only [Option.some.injEq] at h
      subst h
      unfold stepCut at h2
      split at h2
      · rename_i hc
        simp only [Option.some.injEq] at h2
        subst h2
        simp only at hc
        have := floor_dec (x := p.cut - 1 / 10) (st := 99 / 50) (by norm_num) (by linarith)
        rw [show (10 - 1 / 10 : K) / 5 = 99 / 50 by norm_num]
        simp only [meas, Prod.Lex.toLex_lt_toLex]
        right; refine ⟨by trivial, ?_⟩
        right; refine ⟨by trivial, ?_⟩
        left
        rw [show p.cut - 1 / 10 - 99 / 50 = p.cut - 99 / 50 - 1 / 10 by ring] at this
        exact this
      · cases h2
    | none =>
      rw [h2] at h
      simp only at h
      cases h3 : stepStrong ({ p with fwhh := (10 : K), cut := p.strong } : Par K) with
      | some r =>
        rw [h3] at h
        simp only [Option.some.injEq] at h
        subst h
        unfold stepStrong at h3
        split at h3
        · rename_i hc
          simp only [Option.some.injEq] at h3
          subst h3
          simp only at hc
          have := ceil_dec (x := p.strong) (lo := 1 / 100) (st := 999 / 500) (by norm_num) hc
          rw [show (10 - 1 / 100 : K) / 5 = 999 / 500 by norm_num]
          simp only [meas, Prod.Lex.toLex_lt_toLex]
          right; refine ⟨by trivial, ?_⟩
          left; exact this
        · cases h3
      | none =>
        rw [h3] at h
        simp only at h
        rw [Option.map_eq_some_iff] at h
        obtain ⟨r, h4, rfl⟩ := h
        unfold stepWin at h4
        split at h4
        · rename_i hc
          simp only [Option.some.injEq] at h4
          subst h4
          simp only at hc
          have := floor_dec (x := 10000 - p.win) (st := 1800) (by norm_num) (by linarith)
          rw [show (10000 - 1000 : K) / 5 = 1800 by norm_num]
          simp only [meas, Prod.Lex.toLex_lt_toLex]
          left
          rw [show 10000 - p.win - 1800 = 10000 - (p.win + 1800) by ring] at this
          exact this
        · cases h4

theorem sweep_succ (p : Par K) : ∀ k, sweep p (k + 1) = ((nextPar p).map Prod.fst).bind fun q => sweep q k := by
  intro k
  induction k with
  | zero => simp [sweep]
  | succ k ih =>
    rw [sweep, ih]
    cases (nextPar p).map Prod.fst with
    | none => rfl
    | some q => rfl

/-- **C152** The sweep is finite, whatever the configured parameters: the dynamic mode comes to use its best parameters, unless it ends before. -/
theorem C152_finite (p : Par K) : ∃ n, SweepLength p n := by
  have key : ∀ p : Par K, ∃ n, sweep p n = none := by
    intro p
    refine (InvImage.wf (meas (K := K)) wellFounded_lt).induction (C := fun p => ∃ n, sweep p n = none) p ?_
    intro p ih
    cases h : nextPar p with
    | none => exact ⟨1, by rw [sweep_succ, h]; rfl⟩
    | some q =>
      obtain ⟨n, hn⟩ := ih q.1 (nextPar_dec h)
      exact ⟨n + 1, by rw [sweep_succ, h]; exact hn⟩
  classical
  refine ⟨Nat.find (key p), fun k hk => Nat.find_min (key p) hk, Nat.find_spec (key p)⟩

/-- **C152** The parameters of the sweep stay in the bounds of the search (the cut may become negative). -/
theorem C152_bounds (p : Par K) (h1 : 1 / 1000 ≤ p.fwhh) (h2 : 1 / 100 ≤ p.strong) (h3 : -188 / 100 ≤ p.cut) :
    ∀ k q, sweep p k = some q → 1 / 1000 ≤ q.fwhh ∧ q.fwhh ≤ max p.fwhh 10 ∧ 1 / 100 ≤ q.strong ∧ q.strong ≤ max p.strong 10 ∧
      -188 / 100 ≤ q.cut ∧ q.cut ≤ max p.cut (max p.strong 10) ∧ p.win ≤ q.win ∧ q.win ≤ max p.win 11800 := by
  intro k
  induction k with
  | zero =>
    intro q h
    cases h
    exact ⟨h1, le_max_left _ _, h2, le_max_left _ _, h3, le_max_left _ _, le_refl _, le_max_left _ _⟩
  | succ k ih =>
    intro q h
    rw [sweep, Option.bind_eq_some_iff] at h
    obtain ⟨r, hr, h⟩ := h
    obtain ⟨a1, a2, a3, a4, a5, a6, a7, a8⟩ := ih r hr
    rw [Option.map_eq_some_iff] at h
    obtain ⟨x, hx, rfl⟩ := h
    have hmax : ∀ {lo v s : K}, 0 ≤ s → lo ≤ v → lo ≤ max2 lo (v - s) ∧ max2 lo (v - s) ≤ v := by
      intro lo v s hs hv
      unfold max2
      split <;> constructor <;> linarith
    unfold nextPar at hx
    cases e1 : stepFwhh r with
    | some y =>
      rw [e1] at hx
      simp only [Option.some.injEq] at hx
      subst hx
      unfold stepFwhh at e1
      split at e1
      · simp only [Option.some.injEq] at e1
        subst e1
        obtain ⟨b1, b2⟩ := hmax (lo := 1 / 1000) (v := r.fwhh) (s := (10 - 1 / 1000) / 5) (by norm_num) a1
        exact ⟨b1, b2.trans a2, a3, a4, a5, a6, a7, a8⟩
      · cases e1
    | none =>
      rw [e1] at hx
      simp only at hx
      have c10 : (1 / 1000 : K) ≤ 10 := by norm_num
      cases e2 : stepCut { r with fwhh := (10 : K) } with
      | some y =>
        rw [e2] at hx
        simp only [Option.some.injEq] at hx
        subst hx
        unfold stepCut at e2
        split at e2
        · rename_i hc
          simp only [Option.some.injEq] at e2
          subst e2
          simp only at hc
          refine ⟨c10, le_max_right _ _, a3, a4, ?_, ?_, a7, a8⟩
          · show -188 / 100 ≤ r.cut - _
            have : (10 - 1 / 10 : K) / 5 = 198 / 100 := by norm_num
            rw [this]; linarith
          · refine le_trans ?_ a6
            show r.cut - _ ≤ r.cut
            have : (0 : K) ≤ (10 - 1 / 10) / 5 := by norm_num
            linarith
        · cases e2
      | none =>
        rw [e2] at hx
        simp only at hx
        have hcut : -188 / 100 ≤ r.strong := le_trans (by norm_num) a3
        have hcut2 : r.strong ≤ max p.cut (max p.strong 10) := a4.trans (le_max_right _ _)
        cases e3 : stepStrong ({ r with fwhh := (10 : K), cut := r.strong } : Par K) with
        | some y =>
          rw [e3] at hx
          simp only [Option.some.injEq] at hx
          subst hx
          unfold stepStrong at e3
          split at e3
          · simp only [Option.some.injEq] at e3
            subst e3
            obtain ⟨b1, b2⟩ := hmax (lo := 1 / 100) (v := r.strong) (s := (10 - 1 / 100) / 5) (by norm_num) a3
            exact ⟨c10, le_max_right _ _, b1, b2.trans a4, hcut, hcut2, a7, a8⟩
          · cases e3
        | none =>
          rw [e3] at hx
          simp only at hx
          rw [Option.map_eq_some_iff] at hx
          obtain ⟨y, e4, rfl⟩ := hx
          unfold stepWin at e4
          split at e4
          · rename_i hc
            simp only [Option.some.injEq] at e4
            subst e4
            simp only at hc
            refine ⟨c10, le_max_right _ _, ?_, le_max_right _ _, hcut, hcut2, ?_, ?_⟩
            · show (1 / 100 : K) ≤ 10; norm_num
            · show p.win ≤ r.win + _
              have : (0 : K) ≤ (10000 - 1000) / 5 := by norm_num
              linarith
            · refine le_trans ?_ (le_max_right _ _)
              show r.win + _ ≤ 11800
              have : (10000 - 1000 : K) / 5 = 1800 := by norm_num
              rw [this]; linarith
          · cases e4

/-! ## The whole method -/

/-- **C152** The flux is inverted for absorption lines, and for them only: a type of lines which is neither "Absorption" nor "Emission" means all the lines.
Without a peak the method fails; else its outcome is the one of the search. -/
theorem C152_method {S P : Type} (f : Full K S P D M) (fuel : Nat) :
    (f.lineTypeStr = "Absorption" → f.peaks (f.invert f.spc) = none → compute f fuel = .throw .INTERNAL_ERROR) ∧
    (f.lineTypeStr ≠ "Absorption" → f.peaks f.spc = none → compute f fuel = .throw .INTERNAL_ERROR) ∧
    (∀ pk, f.lineTypeStr = "Absorption" → f.peaks (f.invert f.spc) = some pk → ∀ o, compute f fuel = .ok o ↔ o.1 = pk ∧
      let e : Env K D M := ⟨f.par, f.dynamic, f.detect .absorption (f.invert f.spc) pk, f.count, f.matching .absorption (f.invert f.spc), f.redshift⟩
      run e fuel (init e) = .ok o.2) ∧
    (∀ pk, f.lineTypeStr ≠ "Absorption" → f.peaks f.spc = some pk → ∀ o, compute f fuel = .ok o ↔ o.1 = pk ∧
      let t : LType := if f.lineTypeStr = "Emission" then .emission else .all
      let e : Env K D M := ⟨f.par, f.dynamic, f.detect t f.spc pk, f.count, f.matching t f.spc, f.redshift⟩
      run e fuel (init e) = .ok o.2) := by
  have ha : f.lineTypeStr = "Absorption" → lineType f.lineTypeStr = .absorption := by intro h; rw [h]; decide
  have hb : f.lineTypeStr ≠ "Absorption" → lineType f.lineTypeStr = if f.lineTypeStr = "Emission" then .emission else .all := by
    intro h; unfold lineType; rw [if_neg h]
  have hs1 : f.lineTypeStr = "Absorption" → f.spectrum = f.invert f.spc := by intro h; unfold Full.spectrum; rw [if_pos (ha h)]
  have hs2 : f.lineTypeStr ≠ "Absorption" → f.spectrum = f.spc := by
    intro h; unfold Full.spectrum; rw [if_neg]; rw [hb h]; split <;> simp
  refine ⟨?_, ?_, ?_, ?_⟩
  · intro h hp; unfold compute; rw [hs1 h, hp]
  · intro h hp; unfold compute; rw [hs2 h, hp]
  · intro pk h hp o
    unfold compute
    rw [hs1 h, hp]
    simp only [Full.env, ha h, hs1 h]
    constructor
    · intro g
      obtain ⟨p, g1, g2⟩ := Res.bind_eq_ok.1 g
      cases g2
      exact ⟨rfl, g1⟩
    · rintro ⟨g1, g2⟩
      rw [g2, Res.bind_ok, ← g1]
  · intro pk h hp o
    unfold compute
    rw [hs2 h, hp]
    simp only [Full.env, hb h, hs2 h]
    constructor
    · intro g
      obtain ⟨p, g1, g2⟩ := Res.bind_eq_ok.1 g
      cases g2
      exact ⟨rfl, g1⟩
    · rintro ⟨g1, g2⟩
      rw [g2, Res.bind_ok, ← g1]

/-! ## Examples -/

/-- The parameters of the constructor. -/
def exPar : Par ℚ := ⟨5, 3, 2, 250⟩

/-- The cut becomes negative in the sweep of these parameters. -/
example : ∃ k q, sweep exPar k = some q ∧ q.cut < 0 := by
  have e : ((sweep exPar 20).any fun q => decide (q.cut < 0)) = true := by decide +kernel
  cases h : sweep exPar 20 with
  | none => rw [h] at e; simp at e
  | some q => rw [h] at e; exact ⟨20, q, h, by simpa using e⟩

/-- As many lines as the window size divided by 10, a matching for more than 200 of them. -/
def exEnv (dyn : Bool) : Env ℚ Nat ℚ := ⟨exPar, dyn, fun p => .ok (⌊p.win / 10⌋).toNat, id, fun d => if d ≤ 200 then none else some (1 / 2), id⟩

/-- Without the dynamic mode: the lines of the configured parameters, no match. -/
example : run (exEnv false) 1 (init (exEnv false)) = .ok (.done ⟨some 25, none, false, 1⟩) := by
  rw [C152_static _ rfl]
  have : ((exEnv false).detect (exEnv false).par) = .ok 25 := by decide +kernel
  rw [this]; rfl

/-- With it: the search ends at the first window which gives enough lines. -/
example : ∃ o, run (exEnv true) 700 (init (exEnv true)) = .ok (.done o) ∧ o.catalog = some 205 ∧ o.result = some (1 / 2) := by
  have e : (match run (exEnv true) 700 (init (exEnv true)) with
    | .ok (.done o) => decide (o.catalog = some 205) && decide (o.result = some (1 / 2)) | _ => false) = true := by decide +kernel
  revert e
  cases run (exEnv true) 700 (init (exEnv true)) with
  | ub => intro e; simp at e
  | throw _ => intro e; simp at e
  | ok p =>
    cases p with
    | running _ => intro e; simp at e
    | done o => intro e; exact ⟨o, rfl, by simpa using e⟩

/-- No line at all. -/
def exNone : Env ℚ Nat ℚ := ⟨exPar, true, fun _ => .ok 0, id, fun _ => none, id⟩

/-- No line at all: endless. -/
example (fuel : Nat) : ∃ s, run exNone fuel (init exNone) = .ok (.running s) ∧ s.tried.length = fuel :=
  C152_endless exNone rfl 0 (fun _ => ⟨0, rfl, rfl⟩) (fun _ => rfl) fuel

end LmatchSolve
end Amazed
