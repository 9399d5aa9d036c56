import Mathlib.Tactic.Linarith
import Verif.Props.TplCombScale

set_option linter.unusedVariables false
set_option linter.unusedSectionVars false

/-! # The signal to noise ratio of a linear combination of templates

`RedshiftLibrary/src/lib/operator/tplcombination.cpp` 302-338: the ratio stored with the best configuration. -/

namespace Amazed
namespace TplComb

open TplFit

variable {K : Type} [Field K] [LinearOrder K] [IsStrictOrderedRing K]

/-- What the ratio of a least squares fit with `n` coefficients should be: non negative, and its square is the sum of the squared coefficients over the
sum of their variances; none when there is no such number. -/
def SnrSpec (n : Nat) (f : LsFit K) (s : Option K) : Prop :=
  (s = none ↔ (∑ i ∈ Finset.range n, f.cov i i) ≤ 0 ∧ ¬ ((∑ i ∈ Finset.range n, f.cov i i) < 0 ∧ ∀ i < n, f.c i = 0)) ∧
  ∀ t, s = some t → 0 ≤ t ∧ t * t * (∑ i ∈ Finset.range n, f.cov i i) = ∑ i ∈ Finset.range n, f.c i ^ 2

theorem sum_range_map (n : Nat) (g : Nat → K) : ((List.range n).map g).sum = ∑ i ∈ Finset.range n, g i := by
  induction n with
  | zero => simp
  | succ n ih => rw [List.range_succ, List.map_append, List.sum_append, Finset.sum_range_succ, ih]; simp

theorem snrOf_spec {sq : K → K} (hsq : IsSqrt sq) (n : Nat) (f : LsFit K) : SnrSpec n f (snrOf sq n f) := by
  have hS : 0 ≤ ∑ i ∈ Finset.range n, f.c i ^ 2 := Finset.sum_nonneg fun i _ => sq_nonneg _
  have hz : (∑ i ∈ Finset.range n, f.c i ^ 2) = 0 ↔ ∀ i < n, f.c i = 0 := by
    rw [Finset.sum_eq_zero_iff_of_nonneg (fun i _ => sq_nonneg _)]
    simp
  have e1 : ((List.range n).map fun i => f.c i * f.c i).sum = ∑ i ∈ Finset.range n, f.c i ^ 2 := by
    rw [sum_range_map]; exact Finset.sum_congr rfl fun i _ => by ring
  have e2 : ((List.range n).map fun i => f.cov i i).sum = ∑ i ∈ Finset.range n, f.cov i i := sum_range_map n _
  unfold SnrSpec snrOf
  simp only [e1, e2]
  rw [← hz]
  generalize (∑ i ∈ Finset.range n, f.c i ^ 2) = S at *
  generalize (∑ i ∈ Finset.range n, f.cov i i) = E at *
  unfold quo osq
  by_cases hE : E = 0
  · subst hE; simp
  · simp only [Option.bind_some, if_neg hE]
    by_cases hneg : S / E < 0
    · rw [if_pos hneg]
      have hE' : E < 0 := by
        by_contra hc
        exact absurd hneg (not_lt.2 (div_nonneg hS (not_lt.1 hc)))
      have hS' : S ≠ 0 := by rintro rfl; simp at hneg
      exact ⟨⟨fun _ => ⟨hE'.le, fun h => hS' h.2⟩, fun _ => by simp⟩, fun t ht => by simp at ht⟩
    · rw [if_neg hneg]
      have hq := hsq _ (not_lt.1 hneg)
      refine ⟨⟨fun h => by simp at h, fun h => ?_⟩, fun t ht => ?_⟩
      · exfalso
        have hE' : E < 0 := lt_of_le_of_ne h.1 hE
        have hS' : S ≠ 0 := fun h0 => h.2 ⟨hE', h0⟩
        exact hneg (div_neg_of_pos_of_neg (lt_of_le_of_ne hS (Ne.symm hS')) hE')
      · cases ht
        refine ⟨hq.1, ?_⟩
        rw [hq.2, div_mul_cancel₀ _ hE]

/-- The stored best configuration comes from one of the fits. -/
def BestFrom (sq : K → K) (solve : Solver K) (r : Result K) : Prop :=
  ∀ b, r.best = some b → ∃ n eqs f, 2 ≤ n ∧ solve n eqs = .ok f ∧ b.chi2 = f.chi2 ∧ b.snr = snrOf sq n f

theorem dustStep_bestFrom {sq : K → K} {solve : Solver K} {norm : K} {a : Nat} {data : List (K × K)} {op : Opt K} {A : Bool} {kM : Nat} {mi : Int} {kE : Nat}
    {st st' : List (Slot K) × Result K} (h : dustStep sq solve norm a data op A kM mi kE st = .ok st') (hst : BestFrom sq solve st.2) : BestFrom sq solve st'.2 := by
  unfold dustStep at h
  obtain ⟨k, -, h⟩ := Res.bind_eq_ok.1 h
  obtain ⟨slots, h1, h⟩ := Res.bind_eq_ok.1 h
  obtain ⟨eqs, -, h⟩ := Res.bind_eq_ok.1 h
  obtain ⟨f, hf, h⟩ := Res.bind_eq_ok.1 h
  split at h
  · cases h
  rename_i hn
  simp only at h
  obtain ⟨tbl, -, h⟩ := Res.bind_eq_ok.1 h
  cases h
  intro b hb
  have hb := Option.some.inj hb
  generalize (if A = true then mi else -1 : Int) = igm at hb
  generalize (if op.dust = true then op.ebmvValue k else -1) = co at hb
  unfold better at hb
  split at hb
  · subst hb; exact ⟨_, _, f, by omega, hf, rfl, rfl⟩
  · rename_i b0 hb0
    simp only at hb
    split at hb
    · subst hb; exact ⟨_, _, f, by omega, hf, rfl, rfl⟩
    · subst hb; exact hst _ hb0

theorem igmLoop_bestFrom {sq : K → K} {solve : Solver K} {norm : K} {a : Nat} {data : List (K × K)} {op : Opt K} {lo : K} : ∀ (n kM : Nat) (skip : Bool)
    (st : List (Slot K) × Result K) (r : Result K), igmLoop sq solve norm a data op lo kM n skip st = .ok r →
      BestFrom sq solve st.2 → BestFrom sq solve r := by
  intro n
  induction n with
  | zero => intro kM skip st r h hst; cases h; exact hst
  | succ n ih =>
    intro kM skip st r h hst
    unfold igmLoop at h
    by_cases hs : skip = true
    · rw [if_pos hs] at h; cases h; exact hst
    · rw [if_neg hs] at h
      obtain ⟨mi, -, h⟩ := Res.bind_eq_ok.1 h
      obtain ⟨s, -, h⟩ := Res.bind_eq_ok.1 h
      obtain ⟨st', hf, h⟩ := Res.bind_eq_ok.1 h
      refine ih _ _ _ _ h ?_
      exact Res.foldN_inv_ok (P := fun _ (st : List (Slot K) × Result K) => BestFrom sq solve st.2) op.ebmv.length 0 (s.2, st.2) st' hst
        (fun k a b _ _ ha hab => dustStep_bestFrom hab ha) hf

/-- **C136** The reported signal to noise ratio is the one of the least squares fit which gave the reported chi2: its square is the sum of the squared
coefficients over the sum of their variances; it is a number exactly when the sum of the variances is not null and the ratio is not negative. -/
theorem C136_snr {v : Env K} (hsq : IsSqrt v.sq) {lr : Range K} {thr z : K} {mask : List Nat} {ov : Option K} {r : Result K} {b : Best K}
    (h : basicFit v lr thr mask z = .ok (ov, r)) (hb : r.best = some b) :
    ∃ n eqs f, 2 ≤ n ∧ v.solve n eqs = .ok f ∧ b.chi2 = f.chi2 ∧ SnrSpec n f b.snr := by
  unfold basicFit at h
  split at h
  · cases h
  obtain ⟨rb, h1, h⟩ := Res.bind_eq_ok.1 h
  split at h
  · cases h
  obtain ⟨ij, h2, h⟩ := Res.bind_eq_ok.1 h
  obtain ⟨r', h3, h⟩ := Res.bind_eq_ok.1 h
  cases h
  unfold fitSlots at h3
  obtain ⟨ss, h4, h3⟩ := Res.bind_eq_ok.1 h3
  obtain ⟨u, -, h3⟩ := Res.bind_eq_ok.1 h3
  by_cases hE : v.ebmv = []
  · rw [if_pos hE] at h3; cases h3
  rw [if_neg hE] at h3
  obtain ⟨norm, hn, h3⟩ := Res.bind_eq_ok.1 h3
  obtain ⟨data, -, h3⟩ := Res.bind_eq_ok.1 h3
  obtain ⟨r', h6, h7⟩ := Res.bind_eq_ok.1 h3
  have hr : r' = r := by
    split at h7
    · cases h7
    · cases h7; rfl
  subst hr
  obtain ⟨n, eqs, f, f1, f2, f3, f4⟩ := igmLoop_bestFrom _ _ _ _ _ h6 (fun b hb => by cases hb) b hb
  exact ⟨n, eqs, f, f1, f2, f3, f4 ▸ snrOf_spec hsq n f⟩

/-- Two coefficients 3 and 4 of variance 1/2: the ratio is 5. -/
example : SnrSpec 2 (⟨fun i => if i = 0 then 3 else 4, fun i j => if i = j then 1 / 2 else 0, 0⟩ : LsFit ℚ) (some 5) := by
  unfold SnrSpec
  refine ⟨⟨fun h => (by cases h), fun h => ?_⟩, fun t ht => ?_⟩
  · exfalso; have := h.1; simp at this; linarith
  · cases ht; norm_num [Finset.sum_range_succ]

end TplComb
end Amazed
