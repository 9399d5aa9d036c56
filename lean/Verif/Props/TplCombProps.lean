import Mathlib.Algebra.BigOperators.Group.Finset.Basic
import Mathlib.Algebra.BigOperators.Ring.Finset
import Mathlib.Data.List.GetD
import Mathlib.Tactic.FieldSimp
import Mathlib.Tactic.Ring
import Verif.Model.TplComb
import Verif.Props.TplFitProps

/-! # Template combination: the fit at one redshift -/

set_option linter.unusedSectionVars false
set_option linter.unusedVariables false

namespace Amazed
namespace TplComb

open TplFit

variable {K : Type} [Field K] [LinearOrder K] [IsStrictOrderedRing K]

/-! ## Specification -/

/-- What is fitted: the rest frame wavelengths, the spectrum and its errors, the templates on these wavelengths, the first sample and the number of samples. -/
structure Prob (K : Type) where
  rest : List K
  flux : List K
  err : List K
  bases : List (List K)
  p : Nat
  n : Nat

/-- The value at sample `j` of the combination of the templates with amplitudes `amps`, for the dust curve `d` and the IGM curve `g`. -/
def Prob.combo (P : Prob K) (d g : K → K) (amps : Nat → K) (j : Nat) : K :=
  (∑ c ∈ Finset.range P.bases.length, amps c * (P.bases.getD c []).getD j 0) * d (P.rest.getD j 0) * g (P.rest.getD j 0)

/-- The chi2 of these amplitudes. -/
def Prob.chi2 (P : Prob K) (d g : K → K) (amps : Nat → K) : K :=
  ((List.range' P.p P.n).map fun j => ((P.flux.getD j 0 - P.combo d g amps j) / P.err.getD j 0) ^ 2).sum

/-- The amplitudes are the best ones. -/
def Prob.IsMin (P : Prob K) (d g : K → K) (amps : Nat → K) : Prop := ∀ amps', P.chi2 d g amps ≤ P.chi2 d g amps'

/-- Weighted sum of squares of the residuals of linear equations. -/
def wss (p : Nat) (rows : List (SvdFit.Row K)) (c : Nat → K) : K :=
  (rows.map fun r => r.w * (r.y - ∑ i ∈ Finset.range p, c i * r.x.getD i 0) ^ 2).sum

/-- The solver is a least squares solver: when it returns, its chi2 is the weighted sum of squares at its coefficients, and none has a smaller one. -/
def IsWls (solve : Solver K) : Prop := ∀ p rows f, (∀ r ∈ rows, r.x.length = p ∧ 0 < r.w) → solve p rows = .ok f →
  f.chi2 = wss p rows f.c ∧ ∀ c, f.chi2 ≤ wss p rows c

/-! ## The linear system -/

/-- The components have the flux of the templates with these extinctions. -/
def SlotsAt (P : Prob K) (d g : K → K) (slots : List (Slot K)) : Prop :=
  slots.length = P.bases.length ∧ ∀ (c : Nat) (s : Slot K), slots[c]? = some s → ∀ j : Nat, P.p ≤ j → j < P.p + P.n →
    s.t.flux[j]? = some ((P.bases.getD c []).getD j 0 * d (P.rest.getD j 0) * g (P.rest.getD j 0))

theorem mapL_get {α β : Type} {f : α → Res β} : ∀ {l : List α} {x : List β}, SvdFit.mapL f l = .ok x →
    x.length = l.length ∧ ∀ (c : Nat) (a : α), l[c]? = some a → ∃ b, x[c]? = some b ∧ f a = .ok b := by
  intro l
  induction l with
  | nil => intro x h; cases h; exact ⟨rfl, fun c a h => by simp at h⟩
  | cons a l ih =>
    intro x h
    unfold SvdFit.mapL at h
    obtain ⟨b, h1, h⟩ := Res.bind_eq_ok.1 h
    obtain ⟨bs, h2, h⟩ := Res.bind_eq_ok.1 h
    cases h
    obtain ⟨i1, i2⟩ := ih h2
    refine ⟨by simp [i1], fun c a' hc => ?_⟩
    cases c with
    | zero => simp only [List.getElem?_cons_zero, Option.some.injEq] at hc; subst hc; exact ⟨b, rfl, h1⟩
    | succ c => exact i2 c a' (by simpa using hc)

/-- The equation of sample `i`. -/
def eqn (P : Prob K) (d g : K → K) (norm : K) (i : Nat) : SvdFit.Row K :=
  ⟨(List.range P.bases.length).map fun c => (P.bases.getD c []).getD (P.p + i) 0 * d (P.rest.getD (P.p + i) 0) * g (P.rest.getD (P.p + i) 0),
   P.flux.getD (P.p + i) 0 / norm, 1 / ((P.err.getD (P.p + i) 0 / norm) * (P.err.getD (P.p + i) 0 / norm))⟩

theorem datum_get {P : Prob K} {norm : K} {data : List (K × K)} (h : Res.tab (datum P.flux P.err norm P.p) P.n = .ok data) :
    data.length = P.n ∧ ∀ i, i < P.n → P.err.getD (P.p + i) 0 ≠ 0 ∧
      data[i]? = some (P.flux.getD (P.p + i) 0 / norm, 1 / ((P.err.getD (P.p + i) 0 / norm) * (P.err.getD (P.p + i) 0 / norm))) := by
  refine ⟨Res.tab_length _ h, fun i hi => ?_⟩
  obtain ⟨a, h1, h2⟩ := Res.tab_get _ h i hi
  unfold datum at h2
  obtain ⟨y, hy, h2⟩ := Res.bind_eq_ok.1 h2
  obtain ⟨e, he, h2⟩ := Res.bind_eq_ok.1 h2
  have hy := Res.at_eq_ok.1 hy
  have he := Res.at_eq_ok.1 he
  by_cases h0 : e = 0
  · rw [if_pos h0] at h2; cases h2
  rw [if_neg h0] at h2
  cases h2
  have g1 : P.flux.getD (P.p + i) 0 = y := by rw [List.getD_eq_getElem?_getD, Nat.add_comm, hy]; rfl
  have g2 : P.err.getD (P.p + i) 0 = e := by rw [List.getD_eq_getElem?_getD, Nat.add_comm, he]; rfl
  rw [g1, g2]
  exact ⟨h0, h1⟩

theorem equations_eq {P : Prob K} {d g : K → K} {norm : K} {slots : List (Slot K)} {data : List (K × K)} {eqs : List (SvdFit.Row K)}
    (hdata : Res.tab (datum P.flux P.err norm P.p) P.n = .ok data) (hA : SlotsAt P d g slots) (h : equations slots P.p data = .ok eqs) :
    eqs = (List.range P.n).map (eqn P d g norm) := by
  obtain ⟨hl, hd⟩ := datum_get hdata
  unfold equations at h
  have hlen := Res.tab_length _ h
  apply List.ext_getElem?
  intro i
  by_cases hi : i < P.n
  · obtain ⟨r, h1, h2⟩ := Res.tab_get _ h i (by omega)
    obtain ⟨x, hx, h2⟩ := Res.bind_eq_ok.1 h2
    obtain ⟨yw, hy, h2⟩ := Res.bind_eq_ok.1 h2
    cases h2
    rw [h1]
    have hy := Res.at_eq_ok.1 hy
    rw [(hd i hi).2] at hy
    cases hy
    rw [List.getElem?_map, List.getElem?_range hi, Option.map_some]
    congr 1
    unfold eqn
    congr 1
    obtain ⟨x1, x2⟩ := mapL_get hx
    apply List.ext_getElem?
    intro c
    by_cases hc : c < slots.length
    · obtain ⟨b, b1, b2⟩ := x2 c _ (List.getElem?_eq_getElem hc)
      have b2 := Res.at_eq_ok.1 b2
      have := hA.2 c _ (List.getElem?_eq_getElem hc) (P.p + i) (by omega) (by omega)
      rw [Nat.add_comm] at b2
      rw [b2] at this
      rw [b1, List.getElem?_map, List.getElem?_range (by rw [← hA.1]; exact hc), Option.map_some, this]
    · rw [List.getElem?_eq_none (by omega), List.getElem?_eq_none (by simp [← hA.1]; omega)]
  · rw [List.getElem?_eq_none (by omega), List.getElem?_eq_none (by simp; omega)]

theorem wss_chi2 {P : Prob K} {d g : K → K} {norm : K} (hn : norm ≠ 0) (herr : ∀ i, i < P.n → P.err.getD (P.p + i) 0 ≠ 0) (c : Nat → K) :
    wss P.bases.length ((List.range P.n).map (eqn P d g norm)) c = P.chi2 d g (fun k => c k * norm) := by
  unfold wss Prob.chi2
  rw [List.range'_eq_map_range, List.map_map, List.map_map]
  congr 1
  apply List.map_congr_left
  intro i hi
  have he := herr i (List.mem_range.1 hi)
  simp only [Function.comp]
  have hs : ∑ k ∈ Finset.range P.bases.length, c k * (eqn P d g norm i).x.getD k 0 = P.combo d g (fun k => c k * norm) (P.p + i) / norm := by
    unfold Prob.combo
    rw [Finset.sum_mul, Finset.sum_mul, div_eq_mul_inv, Finset.sum_mul]
    apply Finset.sum_congr rfl
    intro k hk
    unfold eqn
    rw [List.getD_eq_getElem?_getD, List.getElem?_map, List.getElem?_range (Finset.mem_range.1 hk), Option.map_some, Option.getD_some]
    field_simp
  rw [hs]
  unfold eqn
  simp only
  field_simp

/-- The fit of one configuration: the chi2 is the one of the amplitudes, and no amplitudes have a smaller one. -/
theorem fit_min {P : Prob K} {d g : K → K} {norm : K} {slots : List (Slot K)} {data : List (K × K)} {eqs : List (SvdFit.Row K)} {solve : Solver K} {f : LsFit K}
    (hw : IsWls solve) (hn : 0 < norm) (hdata : Res.tab (datum P.flux P.err norm P.p) P.n = .ok data) (hA : SlotsAt P d g slots)
    (h : equations slots P.p data = .ok eqs) (hs : solve slots.length eqs = .ok f) :
    f.chi2 = P.chi2 d g (fun k => f.c k * norm) ∧ P.IsMin d g (fun k => f.c k * norm) := by
  have he := equations_eq hdata hA h
  subst he
  have herr := fun i hi => ((datum_get hdata).2 i hi).1
  obtain ⟨h1, h2⟩ := hw _ _ f (by
    intro r hr
    obtain ⟨i, hi, rfl⟩ := List.mem_map.1 hr
    refine ⟨by simp [eqn, hA.1], ?_⟩
    have := herr i (List.mem_range.1 hi)
    have h3 : P.err.getD (P.p + i) 0 / norm ≠ 0 := div_ne_zero this hn.ne'
    exact div_pos one_pos (mul_self_pos.2 h3)) hs
  rw [hA.1] at h1 h2
  rw [wss_chi2 hn.ne' herr] at h1
  refine ⟨h1, fun amps' => ?_⟩
  have := h2 (fun k => amps' k / norm)
  rw [wss_chi2 hn.ne' herr, h1] at this
  simpa [div_mul_cancel₀ _ hn.ne'] using this

theorem normFactor_pos {tiny : K} (ht : 0 < tiny) {flux : List K} {a : Nat} : ∀ (n : Nat) {m : K}, normFactor tiny flux a n = .ok m →
    0 < m ∧ tiny ≤ m ∧ (∀ i : Nat, i < n → |flux.getD (i + a) 0| ≤ m) ∧ (m = tiny ∨ ∃ i : Nat, i < n ∧ m = |flux.getD (i + a) 0|) := by
  intro n
  induction n with
  | zero => intro m h; cases h; exact ⟨ht, le_rfl, fun i hi => by omega, Or.inl rfl⟩
  | succ n ih =>
    intro m h
    unfold normFactor at h
    obtain ⟨m0, h1, h⟩ := Res.bind_eq_ok.1 h
    obtain ⟨v, h2, h⟩ := Res.bind_eq_ok.1 h
    have h2 := Res.at_eq_ok.1 h2
    have hv : flux.getD (n + a) 0 = v := by rw [List.getD_eq_getElem?_getD, h2]; rfl
    obtain ⟨i1, i2, i3, i4⟩ := ih h1
    by_cases hc : m0 < |v|
    · rw [if_pos hc] at h
      cases h
      refine ⟨by linarith, by linarith, fun i hi => ?_, Or.inr ⟨n, by omega, by rw [hv]⟩⟩
      rcases Nat.lt_succ_iff_lt_or_eq.1 hi with hi | rfl
      · linarith [i3 i hi]
      · rw [hv]
    · rw [if_neg hc] at h
      cases h
      push Not at hc
      refine ⟨i1, i2, fun i hi => ?_, ?_⟩
      · rcases Nat.lt_succ_iff_lt_or_eq.1 hi with hi | rfl
        · exact i3 i hi
        · rw [hv]; exact hc
      · rcases i4 with h | ⟨i, h, h'⟩
        · exact Or.inl h
        · exact Or.inr ⟨i, by omega, h'⟩

end TplComb
end Amazed
