import Mathlib.Tactic.Linarith
import Mathlib.Tactic.FieldSimp
import Mathlib.Tactic.Ring
import Mathlib.Tactic.NormNum
import Mathlib.Tactic.Positivity
import Mathlib.Analysis.SpecialFunctions.Pow.Real
import Verif.Model.TplFit

/-! # C64: the amplitude of a template is the least squares amplitude -/

set_option linter.unusedSectionVars false
set_option linter.unusedVariables false

namespace Amazed
namespace TplFit

variable {K : Type} [Field K] [LinearOrder K] [IsStrictOrderedRing K]

/-! ## Specification -/

/-- One sample used in a fit: observed flux, model flux at unit amplitude, error. -/
structure Sample (K : Type) where
  y : K
  x : K
  e : K
deriving DecidableEq, Repr

/-- The chi2 of the model of amplitude `a`. -/
def chi2 (l : List (Sample K)) (a : K) : K := (l.map (fun s => ((s.y - a * s.x) / s.e) ^ 2)).sum

/-- What a prior adds to the chi2 of amplitude `a`: nothing unless it has a positive width and weight. -/
def penalty (p : Prior K) (a : K) : K :=
  if 0 < p.aSigma ∧ 0 < p.betaA then
    p.betaA * ((a - p.aMean) / p.aSigma) ^ 2 - 2 * (p.betaTE * p.precompTE + p.betaA * p.precompA + p.betaZ * p.precompZ)
  else 0

/-- What the fit minimises. -/
def objective (p : Prior K) (l : List (Sample K)) (a : K) : K := chi2 l a + penalty p a

/-- Inverse variance weight of the model: `Σ x² / e²`. -/
def weight (l : List (Sample K)) : K := (l.map (fun s => (s.x / s.e) ^ 2)).sum

/-- Inverse variance brought by the prior. -/
def priorWeight (p : Prior K) : K := if 0 < p.aSigma ∧ 0 < p.betaA then p.betaA / (p.aSigma * p.aSigma) else 0

/-- What a fit returns: `a0` is the amplitude of the smallest objective; it is kept unless it is less than `thr` times
its error, in which case the amplitude is null; the reported chi2 is the objective of the reported amplitude. -/
structure FitSpec (thr : K) (p : Prior K) (l : List (Sample K)) (f : Fit K) (a0 : K) : Prop where
  best : ∀ a, objective p l a0 ≤ objective p l a
  unique : ∀ a, objective p l a = objective p l a0 → a = a0
  err_pos : 0 < f.amplErr
  err : (f.amplErr * (weight l + priorWeight p)) ^ 2 = weight l
  sigma : f.amplSigma * f.amplErr = a0
  ampl : f.ampl = if f.amplSigma < thr then 0 else a0
  chi2 : f.chi2 = objective p l f.ampl
  logprior : f.logprior = penalty p f.ampl
  dtm : f.sums.cross = (l.map (fun s => s.y * s.x * (1 / (s.e * s.e)))).sum
  mtm : f.sums.t = weight l

/-! ## Proofs -/

/-- The three sums of a list of samples. -/
def sumsOf (l : List (Sample K)) : Sums K :=
  ⟨(l.map (fun s => s.y * s.x * (1 / (s.e * s.e)))).sum, (l.map (fun s => s.x * s.x * (1 / (s.e * s.e)))).sum,
    (l.map (fun s => s.y * s.y * (1 / (s.e * s.e)))).sum⟩

theorem chi2_sums (l : List (Sample K)) (a : K) (he : ∀ s ∈ l, s.e ≠ 0) :
    chi2 l a = (sumsOf l).s + (sumsOf l).t * a * a - 2 * a * (sumsOf l).cross := by
  induction l with
  | nil => simp [chi2, sumsOf]
  | cons s l ih =>
    have ih := ih (fun x hx => he x (List.mem_cons_of_mem _ hx))
    have h0 := he s List.mem_cons_self
    simp only [chi2, sumsOf, List.map_cons, List.sum_cons] at ih ⊢
    rw [ih]
    field_simp
    ring

theorem weight_sums (l : List (Sample K)) : weight l = (sumsOf l).t := by
  unfold weight sumsOf
  congr 1
  apply List.map_congr_left
  intro s _
  rw [div_pow, pow_two, pow_two, mul_one_div]

theorem weight_nonneg (l : List (Sample K)) : 0 ≤ weight l := by
  unfold weight
  apply List.sum_nonneg
  intro x hx
  obtain ⟨s, -, rfl⟩ := List.mem_map.1 hx
  positivity

/-- A square root function. -/
def IsSqrt (sq : K → K) : Prop := ∀ x, 0 ≤ x → 0 ≤ sq x ∧ sq x * sq x = x

theorem IsSqrt.pos {sq : K → K} (h : IsSqrt sq) {x : K} (hx : 0 < x) : 0 < sq x := by
  obtain ⟨h1, h2⟩ := h x hx.le
  rcases lt_or_eq_of_le h1 with h3 | h3
  · exact h3
  · rw [← h3] at h2; simp at h2; exact absurd h2 hx.ne

/-- **C64** The amplitude and chi2 computed from the sums of any list of samples with non null errors and a model that is
not null everywhere. -/
theorem C64_fit {sq : K → K} (hsq : IsSqrt sq) (thr : K) (p : Prior K) (l : List (Sample K)) (he : ∀ s ∈ l, s.e ≠ 0)
    (hw : ∃ s ∈ l, s.x ≠ 0) :
    ∃ f a0, amplChi2 sq thr p (sumsOf l) = .ok f ∧ FitSpec thr p l f a0 := by
  have hT : 0 < (sumsOf l).t := by
    rw [← weight_sums]
    rcases lt_or_eq_of_le (weight_nonneg l) with h | h
    · exact h
    · exfalso
      obtain ⟨s, hs, hx⟩ := hw
      unfold weight at h
      have hall : ∀ v ∈ l.map (fun s : Sample K => (s.x / s.e) ^ 2), 0 ≤ v := by
        intro v hv
        obtain ⟨s, -, rfl⟩ := List.mem_map.1 hv
        positivity
      have h1 := List.single_le_sum hall _ (List.mem_map.2 ⟨s, hs, rfl⟩)
      rw [← h] at h1
      have : 0 < (s.x / s.e) ^ 2 := by
        have := he s hs
        positivity
      linarith
  unfold amplChi2
  simp only []
  rw [if_neg hT.ne', if_neg (not_lt.2 hT.le)]
  have hc := fun a => chi2_sums l a he
  set q := sumsOf l with hq
  by_cases hp : 0 < p.aSigma ∧ 0 < p.betaA
  · have hpb : (decide (0 < p.aSigma) && decide (0 < p.betaA)) = true := by simp [hp.1, hp.2]
    simp only [hpb, if_true]
    obtain ⟨hs, hb⟩ := hp
    set b := p.betaA / (p.aSigma * p.aSigma) with hbdef
    have hb0 : 0 < b := by positivity
    have hTb : 0 < q.t + b := by linarith
    set a0 := (q.cross + p.aMean * b) / (q.t + b) with ha0
    have hsqp := hsq.pos hT
    have hobj : ∀ a, objective p l a = (q.t + b) * (a - a0) ^ 2 + objective p l a0 := by
      intro a
      have e0 : a0 * (q.t + b) = q.cross + p.aMean * b := by rw [ha0]; field_simp
      have pb : ∀ a, penalty p a = b * (a - p.aMean) ^ 2 -
          2 * (p.betaTE * p.precompTE + p.betaA * p.precompA + p.betaZ * p.precompZ) := by
        intro a
        unfold penalty
        rw [if_pos ⟨hs, hb⟩, hbdef]
        congr 1
        rw [div_pow]; ring
      unfold objective
      rw [hc, hc, pb, pb]
      have e1 : q.cross = a0 * (q.t + b) - p.aMean * b := by linarith
      rw [e1]
      ring
    refine ⟨_, a0, rfl, ?_, ?_, ?_, ?_, ?_, ?_, ?_, ?_, rfl, by rw [weight_sums]⟩
    · intro a
      rw [hobj a]
      have : 0 ≤ (q.t + b) * (a - a0) ^ 2 := by positivity
      linarith
    · intro a h
      rw [hobj a] at h
      have h1 : (q.t + b) * (a - a0) ^ 2 = 0 := by linarith
      have h2 : (a - a0) ^ 2 = 0 := by
        rcases mul_eq_zero.1 h1 with h | h
        · exact absurd h hTb.ne'
        · exact h
      have := pow_eq_zero_iff (two_ne_zero) |>.1 h2
      linarith
    · exact div_pos hsqp hTb
    · simp only [priorWeight]
      rw [if_pos ⟨hs, hb⟩, weight_sums, ← hq, ← hbdef, div_mul_cancel₀ _ hTb.ne', pow_two]
      exact (hsq q.t hT.le).2
    · simp only []
      rw [div_mul_cancel₀ _ (div_pos hsqp hTb).ne']
    · rfl
    · simp only []
      generalize (if a0 / (sq q.t / (q.t + b)) < thr then 0 else a0) = am
      have pb : penalty p am = p.betaA * ((am - p.aMean) / p.aSigma) ^ 2 -
          2 * (p.betaTE * p.precompTE + p.betaA * p.precompA + p.betaZ * p.precompZ) := if_pos ⟨hs, hb⟩
      unfold objective
      rw [pb, hc]
      have hs0 := hs.ne'
      field_simp
      ring
    · simp only []
      generalize (if a0 / (sq q.t / (q.t + b)) < thr then 0 else a0) = am
      have pb : penalty p am = p.betaA * ((am - p.aMean) / p.aSigma) ^ 2 -
          2 * (p.betaTE * p.precompTE + p.betaA * p.precompA + p.betaZ * p.precompZ) := if_pos ⟨hs, hb⟩
      rw [pb]
      have hs0 := hs.ne'
      field_simp
      ring
  · have hpb : (decide (0 < p.aSigma) && decide (0 < p.betaA)) = false := by
      rw [Bool.and_eq_false_iff]
      rcases not_and_or.1 hp with h | h
      · exact Or.inl (decide_eq_false h)
      · exact Or.inr (decide_eq_false h)
    simp only [hpb, if_false, Bool.false_eq_true]
    set a0 := q.cross / q.t with ha0
    have hinv : 0 < 1 / q.t := by positivity
    have hsqp := hsq.pos hinv
    have pen : ∀ a, penalty p a = 0 := fun a => by unfold penalty; rw [if_neg hp]
    have hobj : ∀ a, objective p l a = q.t * (a - a0) ^ 2 + objective p l a0 := by
      intro a
      have e0 : q.cross = a0 * q.t := by rw [ha0]; field_simp
      unfold objective
      rw [hc, hc, pen, pen, e0]
      ring
    refine ⟨_, a0, rfl, ?_, ?_, ?_, ?_, ?_, ?_, ?_, ?_, rfl, by rw [weight_sums]⟩
    · intro a
      rw [hobj a]
      have : 0 ≤ q.t * (a - a0) ^ 2 := by positivity
      linarith
    · intro a h
      rw [hobj a] at h
      have h1 : q.t * (a - a0) ^ 2 = 0 := by linarith
      have h2 : (a - a0) ^ 2 = 0 := by
        rcases mul_eq_zero.1 h1 with h | h
        · exact absurd h hT.ne'
        · exact h
      have := pow_eq_zero_iff (two_ne_zero) |>.1 h2
      linarith
    · exact hsqp
    · simp only [priorWeight]
      rw [if_neg hp, weight_sums, ← hq, add_zero, mul_pow, pow_two, (hsq (1 / q.t) hinv.le).2, pow_two]
      field_simp
    · simp only []
      rw [div_mul_cancel₀ _ hsqp.ne']
    · rfl
    · simp only []
      unfold objective
      rw [pen, hc, add_zero]
    · rw [pen]

/-- **C64 (positive amplitudes)** With the null amplitude threshold 0 and no prior the amplitude is not negative and its
chi2 is the smallest over the non negative amplitudes; with any positive threshold the amplitude is not negative either. -/
theorem C64_positive {thr : K} {l : List (Sample K)} {f : Fit K} {a0 : K} {p : Prior K} (h : FitSpec thr p l f a0) :
    (0 ≤ thr → 0 ≤ f.ampl) ∧
    (thr = 0 → ¬ (0 < p.aSigma ∧ 0 < p.betaA) → (∀ s ∈ l, s.e ≠ 0) → ∀ a, 0 ≤ a → f.chi2 ≤ chi2 l a) := by
  have hs : f.amplSigma * f.amplErr = a0 := h.sigma
  have hpos : 0 ≤ thr → 0 ≤ f.ampl := by
    intro ht
    rw [h.ampl]
    split
    · exact le_rfl
    · rename_i hn
      rw [← hs]
      exact mul_nonneg (le_trans ht (not_lt.1 hn)) h.err_pos.le
  refine ⟨hpos, ?_⟩
  intro ht hp he a ha
  have pen : ∀ a, penalty p a = 0 := fun a => by unfold penalty; rw [if_neg hp]
  have hobj : ∀ a, objective p l a = chi2 l a := fun a => by unfold objective; rw [pen, add_zero]
  rw [h.chi2, hobj]
  by_cases hl : f.amplSigma < thr
  · rw [h.ampl, if_pos hl]
    have hneg : a0 < 0 := by
      rw [← hs]
      exact mul_neg_of_neg_of_pos (by rw [ht] at hl; exact hl) h.err_pos
    have hb := h.best
    rw [chi2_sums l _ he, chi2_sums l _ he]
    have h1 := hb 0
    have h2 := hb a
    simp only [hobj] at h1 h2
    rw [chi2_sums l _ he, chi2_sums l _ he] at h1
    -- the parabola is convex and 0 lies between its vertex and `a`
    have hx : (sumsOf l).cross ≤ 0 := by
      by_contra hc
      have hc : 0 < (sumsOf l).cross := not_le.1 hc
      have ht0 : 0 ≤ (sumsOf l).t := by rw [← weight_sums]; exact weight_nonneg l
      have : 0 < -(2 * a0 * (sumsOf l).cross) := by nlinarith
      nlinarith [mul_nonneg ht0 (mul_self_nonneg a0)]
    have ht0 : 0 ≤ (sumsOf l).t := by rw [← weight_sums]; exact weight_nonneg l
    nlinarith [mul_nonneg ht0 (mul_self_nonneg a), mul_nonneg ha (neg_nonneg.2 hx)]
  · rw [h.ampl, if_neg hl]
    have := h.best a
    rw [hobj, hobj] at this
    exact this

/-- The real square root is one. -/
theorem isSqrt_real : IsSqrt Real.sqrt := fun x hx => ⟨Real.sqrt_nonneg x, Real.mul_self_sqrt hx⟩

/-- A fit of two samples of flux 2 and 4 by a model of 1 and 2 with unit errors. -/
example : ∃ f a0, amplChi2 Real.sqrt 0 Prior.empty (sumsOf [⟨2, 1, 1⟩, ⟨4, 2, 1⟩]) = .ok f ∧
    FitSpec 0 Prior.empty [⟨2, 1, 1⟩, ⟨4, 2, 1⟩] f a0 :=
  C64_fit isSqrt_real 0 Prior.empty _ (by simp) ⟨⟨2, 1, 1⟩, by simp, by norm_num⟩

end TplFit
end Amazed
