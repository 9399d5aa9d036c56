import Verif.Model.LmSol
import Verif.Props.EltListProps
import Mathlib.Algebra.Order.Field.Basic
import Mathlib.Tactic.Linarith
import Mathlib.Tactic.Positivity

set_option linter.unusedVariables false
set_option linter.unusedSectionVars false

/-! # The solution of a line fit (C161) -/

namespace Amazed
namespace LmSol
open Amp EltList

variable {K : Type} [Field K] [LinearOrder K] [IsStrictOrderedRing K] {G : Type}

theorem foldL_of_ok {α σ : Type} {f : α → σ → Res σ} (P : List α → σ → Prop) (hstep : ∀ pre a s s', P pre s → f a s = .ok s' → P (pre ++ [a]) s') :
    ∀ (l pre : List α) (s s' : σ), P pre s → foldL f l s = .ok s' → P (pre ++ l) s' := by
  intro l
  induction l with
  | nil => intro pre s s' h h1; unfold foldL at h1; cases h1; simpa using h
  | cons a l ih =>
    intro pre s s' h h1
    unfold foldL at h1
    obtain ⟨s1, h2, h3⟩ := (Res.bind_eq_ok).1 h1
    have := ih (pre ++ [a]) s1 s' (hstep pre a s s1 h h2) h3
    simpa using this

/-- Line `r` of the catalog belongs to line `k` of element `i`, `el`, and is in range. -/
def At (env : Env K) (es : List (Elm K G)) (r : Rest) (i k : Nat) (el : Elm K G) : Prop :=
  find es r.id = some (i, k) ∧ es[i]? = some el ∧ env.out i k = false

/-- The flux and its error expected for a line in range of amplitude `a` and error `ae`, where the mean continuum is `c` and its deviation `cs`, and the flux of the line of unit
amplitude is `u`. -/
def FluxSpec (emission : Bool) (a ae : Option K) (c cs : Option K) (u : K) (flux fluxErr : Option K) : Prop :=
  ∀ x, a = some x → 0 ≤ x →
    if emission then flux = some (x * u) ∧ fluxErr = ae.map (· * u)
    else
      (∀ c0, c = some c0 → flux = some (-(x * max 0 c0) * u) ∧ ∀ e s, ae = some e → cs = some s → fluxErr = some ((e * max 0 c0 + x * s) * u)) ∧
      (c = none → flux = some 0) ∧ (ae = none ∨ cs = none → fluxErr = none)

/-- What the row of a line in range holds. -/
structure InRow (env : Env K) (r : Rest) (i k : Nat) (el : Elm K G) (row : Row K G) : Prop where
  elt : row.elt = some i
  inside : row.outside = false
  amp : el.fa[k]? = some row.amp
  ampErr : el.fastd[k]? = some row.ampErr
  off : el.off[k]? = some row.off
  vel : row.vel = el.vel
  group : row.group = el.group
  lambda : row.lambda = some (env.pos i k)
  snr : row.snr = if env.rules then quo (vAbs row.amp) row.ampErr else none
  brief : env.level = false → row.flux = none ∧ row.fluxErr = none ∧ row.sigma = none ∧ row.di = none ∧ row.diErr = none ∧ row.cont = none ∧ row.contErr = none ∧ row.rms = none ∧
    row.poly = (none, none, none)
  poly : env.level = true → row.poly = if env.offsets then el.poly else (none, none, none)
  cont : env.level = true → row.cont = (env.cont i k).1 ∧ row.contErr = (env.cont i k).2 ∧ row.rms = env.rms i
  noFlux : env.level = true → (∀ x, row.amp = some x → x < 0) → row.flux = none ∧ row.fluxErr = none ∧ row.sigma = none
  flux : env.level = true → (∃ x, row.amp = some x ∧ 0 ≤ x) → ∃ sig u, env.unit i k = some (sig, u) ∧ row.sigma = some sig ∧
    FluxSpec r.emission row.amp row.ampErr (env.cont i k).1 (env.cont i k).2 u row.flux row.fluxErr
  di : env.level = true → ∃ d, env.di [i] [k] r.emission = .ok d ∧ row.di = d.map (·.1) ∧ row.diErr = quo (vAbs (d.map (·.1))) (d.map (·.2))

/-- What the solution holds for a line of the catalog. -/
def RowSpec (env : Env K) (es : List (Elm K G)) (r : Rest) (row : Row K G) : Prop :=
  (find es r.id = none → row = Row.default) ∧
  (∀ i k, find es r.id = some (i, k) → env.out i k = true → row = { (Row.default : Row K G) with elt := some i }) ∧
  ∀ i k el, At env es r i k el → InRow env r i k el row

theorem hasFlux_iff (a : Option K) : hasFlux a = true ↔ ∃ x, a = some x ∧ 0 ≤ x := by
  cases a with
  | none => simp [hasFlux]
  | some x => simp [hasFlux]

theorem lineFlux_spec {env : Env K} {emission : Bool} {i k : Nat} {a ae : Option K} {f : Option K × Option K × Option K}
    (h : lineFlux env emission i k a ae (env.cont i k) = .ok f) :
    ((∀ x, a = some x → x < 0) → f.2.1 = none ∧ f.2.2 = none ∧ f.1 = none) ∧
    ((∃ x, a = some x ∧ 0 ≤ x) → ∃ sig u, env.unit i k = some (sig, u) ∧ f.1 = some sig ∧ FluxSpec emission a ae (env.cont i k).1 (env.cont i k).2 u f.2.1 f.2.2) := by
  unfold lineFlux at h
  by_cases hf : hasFlux a = true
  · rw [if_pos hf] at h
    obtain ⟨x, hx, hx0⟩ := (hasFlux_iff a).1 hf
    refine ⟨fun hn => absurd hx0 (not_le.2 (hn x hx)), fun _ => ?_⟩
    cases hu : env.unit i k with
    | none => rw [hu] at h; cases h
    | some su =>
      rw [hu] at h
      simp only [Res.ok.injEq] at h
      subst h
      refine ⟨su.1, su.2, rfl, rfl, ?_⟩
      intro y hy hy0
      rw [hy] at hx
      simp only [Option.some.injEq] at hx
      subst hx
      cases emission with
      | true =>
        simp only [if_true]
        rw [hy]
        refine ⟨rfl, ?_⟩
        cases ae <;> rfl
      | false =>
        simp only [Bool.false_eq_true, if_false]
        rw [hy]
        refine ⟨?_, ?_, ?_⟩
        · intro c0 hc0
          rw [hc0]
          refine ⟨by simp [vMul, pos0], ?_⟩
          intro e s he hs
          rw [he, hs]
          simp [vMul, vAdd, pos0]
        · intro hc
          rw [hc]
          simp [vMul, pos0]
        · rintro (h | h)
          · rw [h]; simp [vMul, vAdd]
          · rw [h]; cases ae <;> simp [vMul, vAdd]
  · rw [if_neg hf] at h
    simp only [Res.ok.injEq] at h
    subst h
    exact ⟨fun _ => ⟨rfl, rfl, rfl⟩, fun h => absurd ((hasFlux_iff a).2 h) hf⟩

/-- The positive part of a sum: NaN and negative terms are left out. -/
def sumPos (f : K → K) (l : List (Option K)) : K := (l.map fun x => match x with
  | none => (0 : K)
  | some v => if v > 0 then f v else 0).sum

theorem sumPos_snoc (f : K → K) (l : List (Option K)) (x : Option K) : sumPos f (l ++ [x]) = addPos (sumPos f l) f x := by
  unfold sumPos
  rw [List.map_append, List.sum_append]
  cases x with
  | none => simp [addPos]
  | some v =>
    simp only [List.map_cons, List.map_nil, List.sum_cons, List.sum_nil, add_zero, addPos]
    split <;> simp

/-- The lines in range of a complex with their rows, in the order of the catalog. -/
def members (tag : Tag) (l : List (Rest × Row K G)) : List (Rest × Row K G) := l.filter fun q => q.1.emission && decide (q.1.tag = tag) && !q.2.outside

/-- What is reported for a complex of `n` lines: nothing (NaN) if fewer are in range; otherwise the values of the first `n`: log of the sum of their positive fluxes (none: no
positive flux), its quotient by the square root of the sum of their variances, and the direct integration over them. -/
def CplxSpec (env : Env K) (es : List (Elm K G)) (n : Nat) (m : List (Rest × Row K G)) (c : Option (Cplx K)) : Prop :=
  (m.length < n → c = none) ∧
  (n ≤ m.length → ∃ (ek : List (Nat × Nat)) (d : Option (K × K)), (m.take n).map (fun q => find es q.1.id) = ek.map some ∧
    env.di (ek.map (·.1)) (ek.map (·.2)) false = .ok d ∧
    c = some ⟨d.map (·.2), logPos env.lg (d.map (·.1)), logPos env.lg (some (sumPos id ((m.take n).map fun q => q.2.flux))),
      quo (some (sumPos id ((m.take n).map fun q => q.2.flux))) (some (env.sq (sumPos (fun x => x * x) ((m.take n).map fun q => q.2.fluxErr))))⟩)

/-- Invariant of the sums of a complex. -/
structure AccInv (env : Env K) (es : List (Elm K G)) (n : Nat) (m : List (Rest × Row K G)) (a : Acc K × Option (Cplx K)) : Prop where
  ek : ∃ ek : List (Nat × Nat), m.map (fun q => find es q.1.id) = ek.map some ∧ a.1.e = ek.map (·.1) ∧ a.1.k = ek.map (·.2)
  flux : a.1.flux = sumPos id (m.map fun q => q.2.flux)
  var : a.1.var = sumPos (fun x => x * x) (m.map fun q => q.2.fluxErr)
  cplx : CplxSpec env es n m a.2

theorem accInv_step {env : Env K} {es : List (Elm K G)} {n : Nat} {m : List (Rest × Row K G)} {a a' : Acc K × Option (Cplx K)} (hn : 0 < n) (h : AccInv env es n m a)
    {r : Rest} {row : Row K G} {i k : Nat} (hf : find es r.id = some (i, k)) (hs : addCplx env n i k row.flux row.fluxErr a = .ok a') :
    AccInv env es n (m ++ [(r, row)]) a' := by
  obtain ⟨ek, e1, e2, e3⟩ := h.ek
  have hlen : m.length = ek.length := by have := congrArg List.length e1; simpa using this
  have hek : (m ++ [(r, row)]).map (fun q => find es q.1.id) = (ek ++ [(i, k)]).map some := by
    rw [List.map_append, List.map_append, e1]; simp [hf]
  have hfl : addPos a.1.flux id row.flux = sumPos id ((m ++ [(r, row)]).map fun q => q.2.flux) := by
    rw [List.map_append]; simp only [List.map_cons, List.map_nil]; rw [sumPos_snoc, h.flux]
  have hvar : addPos a.1.var (fun x => x * x) row.fluxErr = sumPos (fun x => x * x) ((m ++ [(r, row)]).map fun q => q.2.fluxErr) := by
    rw [List.map_append]; simp only [List.map_cons, List.map_nil]; rw [sumPos_snoc, h.var]
  unfold addCplx at hs
  simp only at hs
  by_cases hc : (a.1.e ++ [i]).length = n
  · rw [if_pos hc] at hs
    obtain ⟨d, d1, d2⟩ := (Res.bind_eq_ok).1 hs
    simp only [Res.ok.injEq] at d2
    subst d2
    have hmn : (m ++ [(r, row)]).length = n := by
      rw [List.length_append] at hc ⊢
      rw [e2] at hc; simpa [hlen] using hc
    refine ⟨⟨ek ++ [(i, k)], hek, by simp [e2], by simp [e3]⟩, hfl, hvar, ?_, ?_⟩
    · intro h; omega
    · intro _
      have ht : (m ++ [(r, row)]).take n = m ++ [(r, row)] := List.take_of_length_le (by omega)
      rw [ht]
      refine ⟨ek ++ [(i, k)], d, hek, ?_, ?_⟩
      · rw [e2, e3] at d1; simpa using d1
      · rw [hfl, hvar]
  · rw [if_neg hc] at hs
    simp only [Res.ok.injEq] at hs
    subst hs
    have hne : (m ++ [(r, row)]).length ≠ n := by
      rw [List.length_append] at hc ⊢
      rw [e2] at hc; simpa [hlen] using hc
    refine ⟨⟨ek ++ [(i, k)], hek, by simp [e2], by simp [e3]⟩, hfl, hvar, ?_, ?_⟩
    · intro hl
      rw [List.length_append, List.length_singleton] at hl
      exact h.cplx.1 (by omega)
    · intro hl
      rw [List.length_append, List.length_singleton] at hl hne
      obtain ⟨ek', d, p1, p2, p3⟩ := h.cplx.2 (by omega)
      rw [List.take_append_of_le_length (by omega)]
      exact ⟨ek', d, p1, p2, p3⟩

/-- Invariant of the loop on the lines. -/
structure Inv (env : Env K) (es : List (Elm K G)) (pre : List Rest) (s : St K G) : Prop where
  len : s.rows.length = pre.length
  rows : ∀ (j : Nat) r row, pre[j]? = some r → s.rows[j]? = some row → RowSpec env es r row
  ha : env.level = true → AccInv env es 3 (members .ha (pre.zip s.rows)) s.ha
  oii : env.level = true → AccInv env es 2 (members .oii (pre.zip s.rows)) s.oii
  brief : env.level = false → s.ha.2 = none ∧ s.oii.2 = none

theorem members_snoc (tag : Tag) {pre : List Rest} {rows : List (Row K G)} (h : rows.length = pre.length) (r : Rest) (row : Row K G) :
    members tag ((pre ++ [r]).zip (rows ++ [row])) =
      if r.emission = true ∧ r.tag = tag ∧ row.outside = false then members tag (pre.zip rows) ++ [(r, row)] else members tag (pre.zip rows) := by
  unfold members
  rw [List.zip_append h.symm, List.filter_append]
  split
  · rename_i hh
    rw [List.zip_cons_cons, List.zip_nil_right, List.filter_cons_of_pos (by simp [hh])]
    simp
  · rename_i hh
    rw [List.zip_cons_cons, List.zip_nil_right, List.filter_cons_of_neg (by simp only [Bool.and_eq_true, decide_eq_true_iff, Bool.not_eq_true']; tauto)]
    simp

theorem rows_snoc {env : Env K} {es : List (Elm K G)} {pre : List Rest} {rows : List (Row K G)} (hl : rows.length = pre.length)
    (h : ∀ (j : Nat) r row, pre[j]? = some r → rows[j]? = some row → RowSpec env es r row) {r : Rest} {row : Row K G} (hr : RowSpec env es r row) :
    ∀ (j : Nat) r' row', (pre ++ [r])[j]? = some r' → (rows ++ [row])[j]? = some row' → RowSpec env es r' row' := by
  intro j r' row' h1 h2
  rcases Nat.lt_or_ge j pre.length with hj | hj
  · rw [List.getElem?_append_left hj] at h1
    rw [List.getElem?_append_left (by omega)] at h2
    exact h j r' row' h1 h2
  · rw [List.getElem?_append_right hj] at h1
    rw [List.getElem?_append_right (by omega)] at h2
    rcases Nat.eq_zero_or_pos (j - pre.length) with h0 | h0
    · rw [h0] at h1
      rw [hl, h0] at h2
      simp only [List.getElem?_cons_zero, Option.some.injEq] at h1 h2
      rw [← h1, ← h2]; exact hr
    · rw [List.getElem?_eq_none (by simp; omega)] at h1
      cases h1

/-- A line that is not in range leaves the complexes. -/
theorem inv_out {env : Env K} {es : List (Elm K G)} {pre : List Rest} {s : St K G} (h : Inv env es pre s) {r : Rest} {row : Row K G} (ho : row.outside = true)
    (hr : RowSpec env es r row) : Inv env es (pre ++ [r]) { s with rows := s.rows ++ [row] } := by
  refine ⟨by simp [h.len], rows_snoc h.len h.rows hr, ?_, ?_, h.brief⟩
  · intro hl; rw [members_snoc _ h.len, if_neg (by simp [ho])]; exact h.ha hl
  · intro hl; rw [members_snoc _ h.len, if_neg (by simp [ho])]; exact h.oii hl

theorem inv_step {env : Env K} {es : List (Elm K G)} (pre : List Rest) (r : Rest) (s s' : St K G) (h : Inv env es pre s) (hs : step env es r s = .ok s') :
    Inv env es (pre ++ [r]) s' := by
  unfold step at hs
  cases hf : find es r.id with
  | none =>
    rw [hf] at hs
    simp only [Res.ok.injEq] at hs
    subst hs
    refine inv_out h rfl ⟨fun _ => rfl, ?_, ?_⟩
    · intro i k hh; rw [hf] at hh; cases hh
    · rintro i k el ⟨hh, _⟩; rw [hf] at hh; cases hh
  | some ek =>
    obtain ⟨i, k⟩ := ek
    rw [hf] at hs
    simp only at hs
    by_cases ho : env.out i k = true
    · rw [if_pos ho] at hs
      simp only [Res.ok.injEq] at hs
      subst hs
      refine inv_out h rfl ⟨?_, ?_, ?_⟩
      · intro hh; rw [hf] at hh; cases hh
      · intro i' k' hh _; rw [hf] at hh; cases hh; rfl
      · rintro i' k' el ⟨hh, _, hh2⟩; rw [hf] at hh; cases hh; rw [ho] at hh2; cases hh2
    · rw [if_neg ho] at hs
      obtain ⟨el, he, hs⟩ := (Res.bind_eq_ok).1 hs
      unfold inRange at hs
      obtain ⟨amp, ha, hs⟩ := (Res.bind_eq_ok).1 hs
      obtain ⟨ampErr, hae, hs⟩ := (Res.bind_eq_ok).1 hs
      obtain ⟨o, hoo, hs⟩ := (Res.bind_eq_ok).1 hs
      have hat : ∀ {α : Type} {l : List α} {j : Nat} {x : α}, Res.at_ l j = .ok x → l[j]? = some x := by
        intro α l j x hx
        exact Res.at_eq_ok.1 hx
      have he' := hat he
      have spec : ∀ {row : Row K G}, InRow env r i k el row → RowSpec env es r row := by
        intro row hr
        refine ⟨?_, ?_, ?_⟩
        · intro hh; rw [hf] at hh; cases hh
        · intro i' k' hh hh2; rw [hf] at hh; cases hh; exact absurd hh2 ho
        · rintro i' k' el' ⟨hh, hh1, hh2⟩
          rw [hf] at hh; cases hh
          have e2 := he'.symm.trans hh1
          simp only [Option.some.injEq] at e2
          subst e2
          exact hr
      cases hlv : env.level with
      | false =>
        rw [hlv] at hs
        simp only [Bool.false_eq_true, if_false, Res.ok.injEq] at hs
        subst hs
        have hr : InRow env r i k el (baseRow env el i k amp ampErr o) :=
          { elt := rfl, inside := rfl, amp := hat ha, ampErr := hat hae, off := hat hoo, vel := rfl, group := rfl, lambda := rfl, snr := rfl,
            brief := fun _ => ⟨rfl, rfl, rfl, rfl, rfl, rfl, rfl, rfl, rfl⟩,
            poly := fun hh => by rw [hlv] at hh; cases hh
            cont := fun hh => by rw [hlv] at hh; cases hh
            noFlux := fun hh => by rw [hlv] at hh; cases hh
            flux := fun hh => by rw [hlv] at hh; cases hh
            di := fun hh => by rw [hlv] at hh; cases hh }
        refine ⟨by simp [h.len], rows_snoc h.len h.rows (spec hr), ?_, ?_, fun _ => h.brief hlv⟩
        · intro hh; rw [hlv] at hh; cases hh
        · intro hh; rw [hlv] at hh; cases hh
      | true =>
        rw [hlv] at hs
        simp only [if_true] at hs
        obtain ⟨f, hfl, hs⟩ := (Res.bind_eq_ok).1 hs
        obtain ⟨d, hd, hs⟩ := (Res.bind_eq_ok).1 hs
        obtain ⟨s1, hs1, hs⟩ := (Res.bind_eq_ok).1 hs
        simp only [Res.ok.injEq] at hs
        subst hs
        obtain ⟨f1, f2⟩ := lineFlux_spec hfl
        set row := fullRow env el i k (baseRow env el i k amp ampErr o) f d with hrow
        have hr : InRow env r i k el row :=
          { elt := rfl, inside := rfl, amp := hat ha, ampErr := hat hae, off := hat hoo, vel := rfl, group := rfl, lambda := rfl, snr := rfl,
            brief := fun hh => by rw [hlv] at hh; cases hh
            poly := fun _ => rfl
            cont := fun _ => ⟨rfl, rfl, rfl⟩
            noFlux := fun _ hn => f1 hn
            flux := fun _ hp => f2 hp
            di := fun _ => ⟨d, hd, rfl, rfl⟩ }
        have hrout : row.outside = false := rfl
        have hrf : row.flux = f.2.1 := rfl
        have hre : row.fluxErr = f.2.2 := rfl
        have hrows : s1.rows = s.rows ∧ ((r.emission = true ∧ r.tag = .ha ∧ addCplx env 3 i k row.flux row.fluxErr s.ha = .ok s1.ha ∧ s1.oii = s.oii) ∨
            (r.emission = true ∧ r.tag = .oii ∧ addCplx env 2 i k row.flux row.fluxErr s.oii = .ok s1.oii ∧ s1.ha = s.ha) ∨
            (¬ (r.emission = true ∧ r.tag = .ha) ∧ ¬ (r.emission = true ∧ r.tag = .oii) ∧ s1.ha = s.ha ∧ s1.oii = s.oii)) := by
          unfold complexes at hs1
          rw [hrf, hre]
          by_cases c1 : r.emission = true ∧ r.tag = .ha
          · rw [if_pos c1] at hs1
            obtain ⟨x, hx, hx2⟩ := (Res.bind_eq_ok).1 hs1
            simp only [Res.ok.injEq] at hx2
            subst hx2
            exact ⟨rfl, Or.inl ⟨c1.1, c1.2, hx, rfl⟩⟩
          · rw [if_neg c1] at hs1
            by_cases c2 : r.emission = true ∧ r.tag = .oii
            · rw [if_pos c2] at hs1
              obtain ⟨x, hx, hx2⟩ := (Res.bind_eq_ok).1 hs1
              simp only [Res.ok.injEq] at hx2
              subst hx2
              exact ⟨rfl, Or.inr (Or.inl ⟨c2.1, c2.2, hx, rfl⟩)⟩
            · rw [if_neg c2] at hs1
              simp only [Res.ok.injEq] at hs1
              subst hs1
              exact ⟨rfl, Or.inr (Or.inr ⟨c1, c2, rfl, rfl⟩)⟩
        obtain ⟨hrw, hcase⟩ := hrows
        refine ⟨by simp [hrw, h.len], by simp only [hrw]; exact rows_snoc h.len h.rows (spec hr), ?_, ?_, fun hh => by rw [hlv] at hh; cases hh⟩
        · intro _
          simp only [hrw]
          rw [members_snoc _ h.len]
          rcases hcase with ⟨c1, c2, c3, c4⟩ | ⟨c1, c2, c3, c4⟩ | ⟨c1, c2, c3, c4⟩
          · rw [if_pos ⟨c1, c2, hrout⟩]
            exact accInv_step (by omega) (h.ha hlv) hf c3
          · rw [if_neg (by rw [c2]; simp), c4]; exact h.ha hlv
          · rw [if_neg (fun hh => c1 ⟨hh.1, hh.2.1⟩), c3]; exact h.ha hlv
        · intro _
          simp only [hrw]
          rw [members_snoc _ h.len]
          rcases hcase with ⟨c1, c2, c3, c4⟩ | ⟨c1, c2, c3, c4⟩ | ⟨c1, c2, c3, c4⟩
          · rw [if_neg (by rw [c2]; simp), c4]; exact h.oii hlv
          · rw [if_pos ⟨c1, c2, hrout⟩]
            exact accInv_step (by omega) (h.oii hlv) hf c3
          · rw [if_neg (fun hh => c2 ⟨hh.1, hh.2.1⟩), c4]; exact h.oii hlv

/-- **C161** The solution of a fit has one row for each line of the catalog, in order: a line that no element holds or that is outside of the wavelength range has the default values
(NaN, outside); a line in range has the amplitude, error, offset, velocity and group of its element, and the fluxes that follow from them: amplitude times unit flux for an emission
line, minus the amplitude times the positive continuum times unit flux for an absorption line, NaN for a NaN or negative amplitude. The Hα complex (three lines) and the OII doublet
are reported exactly when all their lines are in range, from the sums of the positive fluxes. -/
theorem C161_solution (env : Env K) (es : List (Elm K G)) (rest : List Rest) (s : St K G) (h : extract env es rest = .ok s) :
    s.rows.length = rest.length ∧ (∀ (j : Nat) r row, rest[j]? = some r → s.rows[j]? = some row → RowSpec env es r row) ∧
      (env.level = true → CplxSpec env es 3 (members .ha (rest.zip s.rows)) s.ha.2 ∧ CplxSpec env es 2 (members .oii (rest.zip s.rows)) s.oii.2) ∧
      (env.level = false → s.ha.2 = none ∧ s.oii.2 = none) := by
  have base : ∀ n, 0 < n → AccInv env es n ([] : List (Rest × Row K G)) ((⟨[], [], 0, 0⟩, none) : Acc K × Option (Cplx K)) := by
    intro n hn
    refine ⟨⟨[], by simp, rfl, rfl⟩, by simp [sumPos], by simp [sumPos], fun _ => rfl, fun hh => ?_⟩
    simp at hh; omega
  have := foldL_of_ok (f := fun r s => step env es r s) (Inv env es) (fun pre a s s' hp hq => inv_step pre a s s' hp hq) rest [] (⟨[], (⟨[], [], 0, 0⟩, none), (⟨[], [], 0, 0⟩, none)⟩ : St K G) s
    ⟨rfl, by simp, fun _ => base 3 (by omega), fun _ => base 2 (by omega), fun _ => ⟨rfl, rfl⟩⟩ h
  rw [List.nil_append] at this
  exact ⟨this.len, this.rows, fun hl => ⟨(this.ha hl).cplx, (this.oii hl).cplx⟩, this.brief⟩

end LmSol
end Amazed
