import Verif.Model.FitAmp
import Verif.Props.EltModelProps
import Verif.Props.AmpProps
import Mathlib.Algebra.BigOperators.Intervals
import Mathlib.Algebra.Order.BigOperators.Ring.Finset
import Mathlib.Tactic.Ring
import Mathlib.Tactic.Linarith
import Mathlib.Tactic.FieldSimp
import Mathlib.Tactic.LinearCombination

set_option linter.unusedVariables false
set_option linter.unusedSectionVars false

/-! # C73: the fitted amplitude of a line element is the non negative least squares amplitude -/

namespace Amazed
namespace FitAmp

open EltSup Classical

variable {K : Type} [Field K] [LinearOrder K] [IsStrictOrderedRing K]

/-! ## Specification -/

/-- An observation as prepared by the code: all vectors have the size of the spectral axis, errors are not null, the supports are
within the spectrum. -/
structure Valid (o : Obs K) (n : Nat) : Prop where
  lines : o.elt.n = n
  cont : o.cont.length = o.axis.length
  flux : o.flux.length = o.axis.length
  err : o.err.length = o.axis.length
  err0 : ∀ s ∈ o.err, s ≠ 0
  bounds : ∀ k, o.elt.In k → o.elt.sup.s k ≤ o.elt.sup.e k → 0 ≤ o.elt.sup.s k ∧ o.elt.sup.e k < o.axis.length

/-- No sample belongs to two supports (see C71 for when this holds). -/
def Apart (e : Elt) : Prop := ∀ (i j : Nat) (p : ℤ), e.In i → e.In j → Covers e.sup.s e.sup.e i p → Covers e.sup.s e.sup.e j p → i = j

/-- Sample `p` is under a support of the element (a support of the line asked for). -/
def Under (o : Obs K) (line : Option Nat) (p : Nat) : Prop :=
  ∃ r, o.elt.In r ∧ Sel o.elt line r ∧ Covers o.elt.sup.s o.elt.sup.e r p

/-- The flux that the element adds to a null model when each line has `A` times its nominal amplitude. -/
def modelOf (o : Obs K) (em : Bool) (nom : Nat → K) (line : Option Nat) (A : K) : List K :=
  match addToModel o.elt em (fun k => ⟨some (A * nom k), o.prof k⟩) line o.axis o.cont (List.replicate o.axis.length 0) with
  | .ok M => M
  | _ => []

/-- Chi2 of a model on the samples under the element. -/
noncomputable def chi2 (o : Obs K) (line : Option Nat) (M : List K) : K :=
  ∑ p ∈ Finset.range o.axis.length,
    if Under o line p then ((o.flux.getD p 0 - M.getD p 0) / o.err.getD p 0) ^ 2 else 0

/-- Chi2 over all the spectra for the amplitude `A`. -/
noncomputable def chi2Tot (obs : List (Obs K)) (em : Bool) (nom : Nat → K) (line : Option Nat) (A : K) : K :=
  (obs.map fun o => chi2 o line (modelOf o em nom line A)).sum

/-- The nominal amplitudes as a function of the index. -/
def nomOf (pe : Amp.Elt K) : Nat → K := fun k => (pe.nominal[k]?).getD 0

/-! ## The sums -/

/-- Model of support `r` at sample `p` for nominal amplitudes. -/
def synP (o : Obs K) (em : Bool) (nom : Nat → K) (r p : Nat) : K :=
  synth o.elt em nom o.prof (o.axis.getD p 0) (o.cont.getD p 0) r

/-- Sample `p` counts for support `r`. -/
def Cnt (o : Obs K) (line : Option Nat) (r p : Nat) : Prop :=
  o.elt.out r = false ∧ Sel o.elt line r ∧ Covers o.elt.sup.s o.elt.sup.e r p

/-- Unit model at sample `p`. -/
noncomputable def unit (o : Obs K) (em : Bool) (nom : Nat → K) (line : Option Nat) (p : Nat) : K :=
  ∑ r ∈ Finset.range o.elt.n, if Cnt o line r p then synP o em nom r p else 0

theorem getD_lt {l : List K} {p : Nat} (hn : p < l.length) : l.getD p 0 = l[p] := by
  rw [List.getD_eq_getElem?_getD, List.getElem?_eq_getElem hn]; rfl

theorem sum_Ico_eq (f : Nat → K) (s e : ℤ) (n : Nat) (h0 : 0 ≤ s) (he : s ≤ e) (hn : e < n) :
    ∑ p ∈ Finset.Ico s.toNat (s.toNat + (e - s + 1).toNat), f p = ∑ p ∈ Finset.range n, if s ≤ p ∧ (p : ℤ) ≤ e then f p else 0 := by
  rw [← Finset.sum_filter]
  apply Finset.sum_congr
  · ext p
    rw [Finset.mem_Ico, Finset.mem_filter, Finset.mem_range]
    omega
  · intro _ _; rfl

theorem crossSupport_spec (o : Obs K) {n : Nat} (hv : Valid o n) (em : Bool) (nom : Nat → K) (r : Nat) (hr : o.elt.In r) (a : Cross K)
    (ha : a.num = 0 → a.mtm = 0) :
    ∃ a', crossSupport (crossSample o em nom r) (o.elt.sup.s r) (o.elt.sup.e r) a = .ok a' ∧ (a'.num = 0 → a'.mtm = 0) ∧
      a'.dtm = a.dtm + ∑ p ∈ Finset.range o.axis.length, (if Covers o.elt.sup.s o.elt.sup.e r p then
        synP o em nom r p * o.flux.getD p 0 * (1 / (o.err.getD p 0 * o.err.getD p 0)) else 0) ∧
      a'.mtm = a.mtm + ∑ p ∈ Finset.range o.axis.length, (if Covers o.elt.sup.s o.elt.sup.e r p then
        synP o em nom r p * synP o em nom r p * (1 / (o.err.getD p 0 * o.err.getD p 0)) else 0) := by
  unfold crossSupport
  by_cases hc : o.elt.sup.s r > o.elt.sup.e r
  · rw [if_pos hc]
    refine ⟨a, rfl, ha, ?_, ?_⟩
    · rw [Finset.sum_eq_zero, add_zero]
      intro p _
      rw [if_neg]; rintro ⟨h1, h2⟩; omega
    · rw [Finset.sum_eq_zero, add_zero]
      intro p _
      rw [if_neg]; rintro ⟨h1, h2⟩; omega
  · rw [if_neg hc]
    obtain ⟨h0, h1⟩ := hv.bounds r hr (not_lt.1 hc)
    rw [if_neg (by omega)]
    obtain ⟨a', h2, h3, h4, h5⟩ := Res.foldN_inv (fun i (b : Cross K) => (b.num = 0 → b.mtm = 0) ∧
        b.dtm = a.dtm + ∑ p ∈ Finset.Ico (o.elt.sup.s r).toNat i,
          synP o em nom r p * o.flux.getD p 0 * (1 / (o.err.getD p 0 * o.err.getD p 0)) ∧
        b.mtm = a.mtm + ∑ p ∈ Finset.Ico (o.elt.sup.s r).toNat i,
          synP o em nom r p * synP o em nom r p * (1 / (o.err.getD p 0 * o.err.getD p 0)))
      (o.elt.sup.e r - o.elt.sup.s r + 1).toNat (o.elt.sup.s r).toNat a ⟨ha, by simp, by simp⟩
      (f := crossSample o em nom r)
      (by
        rintro i b hi hi2 ⟨q1, q2, q3⟩
        have hil : i < o.axis.length := by omega
        unfold crossSample
        rw [Res.at_of_lt (show i < o.cont.length by rw [hv.cont]; exact hil), Res.bind_ok,
          Res.at_of_lt (show i < o.flux.length by rw [hv.flux]; exact hil), Res.bind_ok, Res.at_of_lt hil, Res.bind_ok,
          Res.at_of_lt (show i < o.err.length by rw [hv.err]; exact hil), Res.bind_ok]
        rw [if_neg (hv.err0 _ (List.getElem_mem _))]
        refine ⟨_, rfl, by intro h; simp at h, ?_, ?_⟩
        · rw [Finset.sum_Ico_succ_top hi]
          simp only [q2]
          rw [← add_assoc]
          congr 1
          simp only [synP]
          rw [getD_lt (hn := hil), getD_lt (hn := by rw [hv.cont]; exact hil),
            getD_lt (hn := by rw [hv.flux]; exact hil), getD_lt (hn := by rw [hv.err]; exact hil)]
        · rw [Finset.sum_Ico_succ_top hi]
          simp only [q3]
          rw [← add_assoc]
          congr 1
          simp only [synP]
          rw [getD_lt (hn := hil), getD_lt (hn := by rw [hv.cont]; exact hil),
            getD_lt (hn := by rw [hv.err]; exact hil)])
    refine ⟨a', h2, h3, ?_, ?_⟩
    · rw [h4, sum_Ico_eq _ _ _ _ h0 (not_lt.1 hc) h1]
      congr 1
      apply Finset.sum_congr rfl
      intro p _
      exact if_congr Iff.rfl rfl rfl
    · rw [h5, sum_Ico_eq _ _ _ _ h0 (not_lt.1 hc) h1]
      congr 1
      apply Finset.sum_congr rfl
      intro p _
      exact if_congr Iff.rfl rfl rfl

theorem cross_spec (o : Obs K) {n : Nat} (hv : Valid o n) (em : Bool) (nom : Nat → K) (line : Option Nat) (a : Cross K)
    (ha : a.num = 0 → a.mtm = 0) :
    ∃ a', cross o em nom line a = .ok a' ∧ (a'.num = 0 → a'.mtm = 0) ∧
      a'.dtm = a.dtm + ∑ r ∈ Finset.range o.elt.n, ∑ p ∈ Finset.range o.axis.length, (if Cnt o line r p then
        synP o em nom r p * o.flux.getD p 0 * (1 / (o.err.getD p 0 * o.err.getD p 0)) else 0) ∧
      a'.mtm = a.mtm + ∑ r ∈ Finset.range o.elt.n, ∑ p ∈ Finset.range o.axis.length, (if Cnt o line r p then
        synP o em nom r p * synP o em nom r p * (1 / (o.err.getD p 0 * o.err.getD p 0)) else 0) := by
  unfold cross
  have skip : ∀ (m : Nat) (f : Nat → K), ¬ (o.elt.out m = false ∧ Sel o.elt line m) →
      ∑ p ∈ Finset.range o.axis.length, (if Cnt o line m p then f p else 0) = 0 := by
    intro m f h
    apply Finset.sum_eq_zero
    intro p _
    rw [if_neg]; rintro ⟨h1, h2, _⟩; exact h ⟨h1, h2⟩
  have h := Res.foldN_inv (fun i (b : Cross K) => (b.num = 0 → b.mtm = 0) ∧
      b.dtm = a.dtm + ∑ r ∈ Finset.range i, ∑ p ∈ Finset.range o.axis.length, (if Cnt o line r p then
        synP o em nom r p * o.flux.getD p 0 * (1 / (o.err.getD p 0 * o.err.getD p 0)) else 0) ∧
      b.mtm = a.mtm + ∑ r ∈ Finset.range i, ∑ p ∈ Finset.range o.axis.length, (if Cnt o line r p then
        synP o em nom r p * synP o em nom r p * (1 / (o.err.getD p 0 * o.err.getD p 0)) else 0)) o.elt.n 0 a
      ⟨ha, by simp, by simp⟩
      (f := fun index a =>
        if (o.elt.theo index).out then .ok a
        else if EltSup.skipSup o.elt line index then .ok a
        else crossSupport (crossSample o em nom index) (o.elt.sup.s index) (o.elt.sup.e index) a)
      (by
        rintro m b _ hm ⟨q1, q2, q3⟩
        rw [Nat.zero_add] at hm
        have unch : ¬ (o.elt.out m = false ∧ Sel o.elt line m) → ((b.num = 0 → b.mtm = 0) ∧
            b.dtm = a.dtm + ∑ r ∈ Finset.range (m + 1), ∑ p ∈ Finset.range o.axis.length, (if Cnt o line r p then
              synP o em nom r p * o.flux.getD p 0 * (1 / (o.err.getD p 0 * o.err.getD p 0)) else 0) ∧
            b.mtm = a.mtm + ∑ r ∈ Finset.range (m + 1), ∑ p ∈ Finset.range o.axis.length, (if Cnt o line r p then
              synP o em nom r p * synP o em nom r p * (1 / (o.err.getD p 0 * o.err.getD p 0)) else 0)) := by
          intro hn
          refine ⟨q1, ?_, ?_⟩
          · rw [Finset.sum_range_succ, skip m _ hn, add_zero]; exact q2
          · rw [Finset.sum_range_succ, skip m _ hn, add_zero]; exact q3
        by_cases c1 : (o.elt.theo m).out = true
        · rw [if_pos c1]
          exact ⟨b, rfl, unch (by rintro ⟨h, _⟩; unfold Elt.out at h; rw [c1] at h; cases h)⟩
        · rw [if_neg c1]
          by_cases c2 : skipSup o.elt line m = true
          · rw [if_pos c2]
            refine ⟨b, rfl, unch ?_⟩
            rintro ⟨_, h⟩
            cases line with
            | none => cases c2
            | some l => simp only [Sel] at h; simp only [skipSup, h] at c2; cases c2
          · rw [if_neg c2]
            have hin : o.elt.In m := ⟨hm, by unfold Elt.out; simpa using c1⟩
            have hsel : Sel o.elt line m := by
              cases line with
              | none => trivial
              | some l => simpa [Sel, skipSup] using c2
            obtain ⟨b', w1, w2, w3, w4⟩ := crossSupport_spec o hv em nom m hin b q1
            have hcnt : ∀ p, Cnt o line m p ↔ Covers o.elt.sup.s o.elt.sup.e m p := fun p => ⟨fun h => h.2.2, fun h => ⟨hin.2, hsel, h⟩⟩
            refine ⟨b', w1, w2, ?_, ?_⟩
            · rw [w3, q2, Finset.sum_range_succ, add_assoc]
              simp only [hcnt]
            · rw [w4, q3, Finset.sum_range_succ, add_assoc]
              simp only [hcnt])
  rw [Nat.zero_add] at h
  exact h

theorem In_iff {o : Obs K} {r : Nat} : o.elt.In r ↔ r < o.elt.n ∧ o.elt.out r = false := Iff.rfl

/-- With separate supports at most one support counts at a sample. -/
theorem unit_eq (o : Obs K) (ha : Apart o.elt) (em : Bool) (nom : Nat → K) (line : Option Nat) (p r : Nat) (hr : r < o.elt.n)
    (hc : Cnt o line r p) (f : K → K) (hf : f 0 = 0) :
    (∑ r ∈ Finset.range o.elt.n, if Cnt o line r p then f (synP o em nom r p) else 0) = f (synP o em nom r p) := by
  rw [Finset.sum_eq_single r]
  · rw [if_pos hc]
  · intro b hb hne
    rw [if_neg]
    intro h
    exact hne (ha b r p ⟨Finset.mem_range.1 hb, h.1⟩ ⟨hr, hc.1⟩ h.2.2 hc.2.2)
  · intro h; exact absurd (Finset.mem_range.2 hr) h

theorem unit_zero (o : Obs K) (line : Option Nat) (p : Nat) (h : ¬ Under o line p) (f : Nat → K) :
    (∑ r ∈ Finset.range o.elt.n, if Cnt o line r p then f r else 0) = 0 := by
  apply Finset.sum_eq_zero
  intro r hr
  rw [if_neg]
  rintro ⟨h1, h2, h3⟩
  exact h ⟨r, ⟨Finset.mem_range.1 hr, h1⟩, h2, h3⟩

theorem unit_f (o : Obs K) (ha : Apart o.elt) (em : Bool) (nom : Nat → K) (line : Option Nat) (p : Nat) (f : K → K) (hf : f 0 = 0) :
    (∑ r ∈ Finset.range o.elt.n, if Cnt o line r p then f (synP o em nom r p) else 0) = f (unit o em nom line p) := by
  by_cases hu : Under o line p
  · obtain ⟨r, h1, h2, h3⟩ := hu
    have hc : Cnt o line r p := ⟨h1.2, h2, h3⟩
    rw [unit_eq o ha em nom line p r h1.1 hc f hf]
    unfold unit
    have := unit_eq o ha em nom line p r h1.1 hc id rfl
    simp only [id] at this
    rw [this]
  · rw [unit_zero o line p hu]
    unfold unit
    rw [unit_zero o line p hu, hf]

/-- The sums of an observation in terms of the unit model. -/
noncomputable def dtmO (o : Obs K) (em : Bool) (nom : Nat → K) (line : Option Nat) : K :=
  ∑ p ∈ Finset.range o.axis.length, unit o em nom line p * o.flux.getD p 0 * (1 / (o.err.getD p 0 * o.err.getD p 0))

noncomputable def mtmO (o : Obs K) (em : Bool) (nom : Nat → K) (line : Option Nat) : K :=
  ∑ p ∈ Finset.range o.axis.length, unit o em nom line p * unit o em nom line p * (1 / (o.err.getD p 0 * o.err.getD p 0))

theorem cross_unit (o : Obs K) {n : Nat} (hv : Valid o n) (hap : Apart o.elt) (em : Bool) (nom : Nat → K) (line : Option Nat) (a : Cross K)
    (ha : a.num = 0 → a.mtm = 0) :
    ∃ a', cross o em nom line a = .ok a' ∧ (a'.num = 0 → a'.mtm = 0) ∧
      a'.dtm = a.dtm + dtmO o em nom line ∧ a'.mtm = a.mtm + mtmO o em nom line := by
  obtain ⟨a', h1, h2, h3, h4⟩ := cross_spec o hv em nom line a ha
  refine ⟨a', h1, h2, ?_, ?_⟩
  · rw [h3, Finset.sum_comm]
    unfold dtmO
    congr 1
    apply Finset.sum_congr rfl
    intro p _
    exact unit_f o hap em nom line p (fun x => x * o.flux.getD p 0 * (1 / (o.err.getD p 0 * o.err.getD p 0))) (by simp)
  · rw [h4, Finset.sum_comm]
    unfold mtmO
    congr 1
    apply Finset.sum_congr rfl
    intro p _
    exact unit_f o hap em nom line p (fun x => x * x * (1 / (o.err.getD p 0 * o.err.getD p 0))) (by simp)

theorem crossAll_unit (em : Bool) (nom : Nat → K) (line : Option Nat) {n : Nat} : ∀ (obs : List (Obs K)) (a : Cross K),
    (∀ o ∈ obs, Valid o n ∧ Apart o.elt) → (a.num = 0 → a.mtm = 0) →
    ∃ a', crossAll em nom line obs a = .ok a' ∧ (a'.num = 0 → a'.mtm = 0) ∧
      a'.dtm = a.dtm + (obs.map fun o => dtmO o em nom line).sum ∧ a'.mtm = a.mtm + (obs.map fun o => mtmO o em nom line).sum
  | [], a, _, ha => ⟨a, rfl, ha, by simp, by simp⟩
  | o :: os, a, h, ha => by
    obtain ⟨a1, h1, h2, h3, h4⟩ := cross_unit o (h o (by simp)).1 (h o (by simp)).2 em nom line a ha
    obtain ⟨a2, h5, h6, h7, h8⟩ := crossAll_unit em nom line os a1 (fun o' ho' => h o' (by simp [ho'])) h2
    refine ⟨a2, ?_, h6, ?_, ?_⟩
    · unfold crossAll; rw [h1, Res.bind_ok, h5]
    · rw [h7, h3, List.map_cons, List.sum_cons, add_assoc]
    · rw [h8, h4, List.map_cons, List.sum_cons, add_assoc]

/-! ## The models -/

theorem synth_eq (e : Elt) (em : Bool) (nom : Nat → K) (prof : Nat → K → K) (x c : K) (r : Nat) :
    synth e em nom prof x c r = ∑ k ∈ Finset.range e.n, if e.out k = false ∧ e.sup.act r k = true then
      (if em then nom k * prof k x else (-1) * c * nom k * prof k x) else 0 := by
  unfold synth
  apply foldl_sum
  intro y k
  unfold Elt.out
  cases h1 : (e.theo k).out <;> cases h2 : e.sup.act r k <;> cases em <;> simp

theorem modelAt_synth (e : Elt) (ho : e.outside = false) (em : Bool) (nom : Nat → K) (prof : Nat → K → K) (hn : ∀ k, k < e.n → 0 ≤ nom k)
    (A : K) (hA : 0 ≤ A) (x c : K) (r : Nat) :
    modelAt e em (fun k => ⟨some (A * nom k), prof k⟩) x c r = A * synth e em nom prof x c r := by
  rw [modelAt_eq e em _ x c r ho, synth_eq, Finset.mul_sum]
  apply Finset.sum_congr rfl
  intro k hk
  split
  · unfold contrib
    simp only
    rw [if_neg (not_lt.2 (mul_nonneg hA (hn k (Finset.mem_range.1 hk))))]
    cases em
    · simp only [Bool.false_eq_true, if_false]; ring
    · simp only [if_true]; ring
  · rw [mul_zero]

theorem outside_none {e : Elt} (ho : e.outside = true) (k : Nat) : ¬ e.In k := by
  rintro ⟨h1, h2⟩
  unfold Elt.outside at ho
  rw [List.all_eq_true] at ho
  have := ho k (List.mem_range.2 h1)
  unfold Elt.out at h2
  rw [h2] at this; cases this

/-- The model of the element for amplitude `A` is `A` times the unit model. -/
theorem modelOf_spec (o : Obs K) {n : Nat} (hv : Valid o n) (em : Bool) (nom : Nat → K) (hn : ∀ k, k < n → 0 ≤ nom k) (line : Option Nat)
    (A : K) (hA : 0 ≤ A) :
    ∃ M, addToModel o.elt em (fun k => ⟨some (A * nom k), o.prof k⟩) line o.axis o.cont (List.replicate o.axis.length 0) = .ok M ∧
      M.length = o.axis.length ∧ ∀ p, p < o.axis.length → M.getD p 0 = A * unit o em nom line p := by
  by_cases ho : o.elt.outside = true
  · refine ⟨List.replicate o.axis.length 0, ?_, by simp, ?_⟩
    · unfold addToModel; rw [if_pos ho]
    · intro p hp
      unfold unit
      rw [unit_zero o line p (by rintro ⟨r, h, _⟩; exact outside_none ho r h)]
      simp [List.getD_eq_getElem?_getD, hp]
  · have ho' : o.elt.outside = false := by simpa using ho
    obtain ⟨M, h1, h2, h3⟩ := addToModel_raw o.axis o.elt ho' hv.bounds em (fun k => ⟨some (A * nom k), o.prof k⟩) line o.cont
      (List.replicate o.axis.length 0) hv.cont (by simp)
    refine ⟨M, h1, by rw [h2]; simp, ?_⟩
    intro p hp
    rw [List.getD_eq_getElem?_getD, h3, List.getElem?_replicate, if_pos hp]
    simp only [Option.map_some, Option.getD_some, zero_add]
    unfold unit
    rw [Finset.mul_sum]
    apply Finset.sum_congr rfl
    intro r _
    unfold Cnt
    split
    · have hpc : p < o.cont.length := by rw [hv.cont]; exact hp
      unfold supModel synP
      rw [List.getElem?_eq_getElem hp, List.getElem?_eq_getElem hpc, getD_lt (hn := hp), getD_lt (hn := hpc)]
      simp only
      exact modelAt_synth o.elt ho' em nom o.prof (by rw [hv.lines]; exact hn) A hA _ _ r
    · rw [mul_zero]

theorem chi2_quad (o : Obs K) {n : Nat} (hv : Valid o n) (em : Bool) (nom : Nat → K) (hn : ∀ k, k < n → 0 ≤ nom k) (line : Option Nat)
    (A : K) (hA : 0 ≤ A) :
    chi2 o line (modelOf o em nom line A) = chi2 o line (modelOf o em nom line 0) + A ^ 2 * mtmO o em nom line - 2 * A * dtmO o em nom line := by
  obtain ⟨M, h1, h2, h3⟩ := modelOf_spec o hv em nom hn line A hA
  obtain ⟨M0, k1, k2, k3⟩ := modelOf_spec o hv em nom hn line 0 (le_refl _)
  have e1 : modelOf o em nom line A = M := by unfold modelOf; rw [h1]
  have e0 : modelOf o em nom line 0 = M0 := by unfold modelOf; rw [k1]
  rw [e1, e0]
  unfold chi2 mtmO dtmO
  rw [Finset.mul_sum, Finset.mul_sum, ← Finset.sum_add_distrib, ← Finset.sum_sub_distrib]
  apply Finset.sum_congr rfl
  intro p hp
  have hpl := Finset.mem_range.1 hp
  rw [h3 p hpl, k3 p hpl]
  have he : o.err.getD p 0 ≠ 0 := by
    rw [getD_lt (hn := by rw [hv.err]; exact hpl)]
    exact hv.err0 _ (List.getElem_mem _)
  split
  · field_simp
    ring
  · rename_i hu
    have : unit o em nom line p = 0 := unit_zero o line p hu _
    rw [this]; ring

theorem chi2Tot_quad {n : Nat} (em : Bool) (nom : Nat → K) (hn : ∀ k, k < n → 0 ≤ nom k) (line : Option Nat) (A : K) (hA : 0 ≤ A) :
    ∀ (obs : List (Obs K)), (∀ o ∈ obs, Valid o n) →
    chi2Tot obs em nom line A = chi2Tot obs em nom line 0 + A ^ 2 * (obs.map fun o => mtmO o em nom line).sum -
      2 * A * (obs.map fun o => dtmO o em nom line).sum
  | [], _ => by simp [chi2Tot]
  | o :: os, h => by
    have ih := chi2Tot_quad em nom hn line A hA os (fun o' ho' => h o' (by simp [ho']))
    unfold chi2Tot at ih ⊢
    rw [List.map_cons, List.sum_cons, List.map_cons, List.sum_cons, List.map_cons, List.sum_cons, List.map_cons, List.sum_cons, ih,
      chi2_quad o (h o (by simp)) em nom hn line A hA]
    ring

theorem mtmO_nonneg (o : Obs K) (em : Bool) (nom : Nat → K) (line : Option Nat) : 0 ≤ mtmO o em nom line := by
  apply Finset.sum_nonneg
  intro p _
  exact mul_nonneg (mul_self_nonneg _) (one_div_nonneg.2 (mul_self_nonneg _))

theorem mtmO_zero (o : Obs K) {n : Nat} (hv : Valid o n) (em : Bool) (nom : Nat → K) (line : Option Nat) (h : mtmO o em nom line = 0)
    (p : Nat) (hp : p < o.axis.length) : unit o em nom line p = 0 := by
  unfold mtmO at h
  rw [Finset.sum_eq_zero_iff_of_nonneg (fun p _ => mul_nonneg (mul_self_nonneg _) (one_div_nonneg.2 (mul_self_nonneg _)))] at h
  have h1 := h p (Finset.mem_range.2 hp)
  have he : o.err.getD p 0 ≠ 0 := by
    rw [getD_lt (hn := by rw [hv.err]; exact hp)]
    exact hv.err0 _ (List.getElem_mem _)
  rcases mul_eq_zero.1 h1 with h2 | h2
  · exact mul_self_eq_zero.1 h2
  · exact absurd h2 (one_div_ne_zero (mul_ne_zero he he))

theorem list_sum_nonneg (l : List K) (h : ∀ x ∈ l, 0 ≤ x) : 0 ≤ l.sum ∧ (l.sum = 0 → ∀ x ∈ l, x = 0) := by
  induction l with
  | nil => simp
  | cons a l ih =>
    obtain ⟨h1, h2⟩ := ih (fun x hx => h x (by simp [hx]))
    have ha := h a (by simp)
    rw [List.sum_cons]
    refine ⟨add_nonneg ha h1, ?_⟩
    intro hs x hx
    have : a = 0 ∧ l.sum = 0 := (add_eq_zero_iff_of_nonneg ha h1).1 hs
    rcases List.mem_cons.1 hx with rfl | hx
    · exact this.1
    · exact h2 this.2 x hx

/-- **C73, amplitude fit.** For spectra with non null errors and separate supports, and non negative nominal amplitudes, `fitAmplitude` on an
element seen by at least one spectrum ends, and:
* either the element adds nothing to the model of any spectrum on the samples asked for, whatever the amplitude: sums and
  amplitudes are then NaN;
* or the amplitude given to the element is the only minimiser, among the non negative ones, of the chi2 between the
  flux without continuum and the flux added by the element to the models of all the spectra; the sums recorded
  are those of this parabola and the error is the inverse of the square root of its curvature. -/
theorem C73_fit (sq : K → K) (obs : List (Obs K)) (pe : Amp.Elt K) (line : Option Nat) (hw : Amp.WF pe)
    (hv : ∀ o ∈ obs, Valid o pe.lines.length ∧ Apart o.elt) (hn : ∀ x ∈ pe.nominal, 0 ≤ x) (hg : pe.gOutside = false)
    (ho : ∃ o ∈ obs, o.elt.outside = false) :
    ∃ pe' s, fitAmplitude sq obs pe line = .ok (pe', s) ∧
      ((s = ⟨none, none, none⟩ ∧ (∀ x ∈ pe'.fa, x = none) ∧ (∀ x ∈ pe'.fastd, x = none) ∧
          ∀ o ∈ obs, ∀ A, 0 ≤ A → ∀ x ∈ modelOf o pe.isEmission (nomOf pe) line A, x = 0) ∨
        (∃ A mtm dtm : K, s = ⟨some (max 0 dtm), some mtm, some dtm⟩ ∧ 0 < mtm ∧ 0 ≤ A ∧
          Amp.setAmplitude pe (some A) (some (1 / sq mtm)) = .ok pe' ∧
          (∀ A', 0 ≤ A' → A' ≠ A → chi2Tot obs pe.isEmission (nomOf pe) line A < chi2Tot obs pe.isEmission (nomOf pe) line A') ∧
          (∀ A', 0 ≤ A' → chi2Tot obs pe.isEmission (nomOf pe) line A' =
            chi2Tot obs pe.isEmission (nomOf pe) line 0 + mtm * A' ^ 2 - 2 * dtm * A') ∧
          A * mtm = max 0 dtm)) := by
  have hn' : ∀ k, k < pe.lines.length → 0 ≤ nomOf pe k := by
    intro k hk
    unfold nomOf
    rw [List.getElem?_eq_getElem (by rw [hw.nominal]; exact hk)]
    exact hn _ (List.getElem_mem _)
  obtain ⟨a, h1, h2, h3, h4⟩ := crossAll_unit pe.isEmission (nomOf pe) line obs ⟨0, 0, 0⟩ hv (fun _ => rfl)
  simp only [zero_add] at h3 h4
  have hsum := list_sum_nonneg (obs.map fun o => mtmO o pe.isEmission (nomOf pe) line) (by
    intro x hx; obtain ⟨o, _, rfl⟩ := List.mem_map.1 hx; exact mtmO_nonneg o _ _ _)
  unfold fitAmplitude
  rw [if_neg (by
    intro h
    rw [List.all_eq_true] at h
    obtain ⟨o, ho1, ho2⟩ := ho
    have := h o ho1
    rw [ho2] at this; cases this)]
  simp only
  change ∃ pe' s, (crossAll pe.isEmission (nomOf pe) line obs ⟨0, 0, 0⟩ >>= fun a => _) = _ ∧ _
  rw [h1, Res.bind_ok]
  by_cases hc : a.num = 0 ∨ a.mtm = 0
  · have hm : a.mtm = 0 := hc.elim h2 id
    rw [if_pos hc]
    refine ⟨_, _, rfl, Or.inl ⟨rfl, ?_, ?_, ?_⟩⟩
    · intro x hx; exact (List.mem_replicate.1 hx).2
    · intro x hx; exact (List.mem_replicate.1 hx).2
    · intro o ho1 A hA x hx
      obtain ⟨M, k1, k2, k3⟩ := modelOf_spec o (hv o ho1).1 pe.isEmission (nomOf pe) hn' line A hA
      have e1 : modelOf o pe.isEmission (nomOf pe) line A = M := by unfold modelOf; rw [k1]
      rw [e1] at hx
      obtain ⟨p, hp, rfl⟩ := List.mem_iff_getElem.1 hx
      have := k3 p (by omega)
      rw [getD_lt (hn := hp)] at this
      rw [this, mtmO_zero o (hv o ho1).1 pe.isEmission (nomOf pe) line
        (hsum.2 (by rw [← h4]; exact hm) _ (List.mem_map.2 ⟨o, ho1, rfl⟩)) p (by omega), mul_zero]
  · rw [if_neg hc]
    have hm0 : a.mtm ≠ 0 := fun h => hc (Or.inr h)
    have hmp : 0 < a.mtm := lt_of_le_of_ne (by rw [h4]; exact hsum.1) (Ne.symm hm0)
    have hA : 0 ≤ max 0 a.dtm / a.mtm := div_nonneg (le_max_left _ _) (le_of_lt hmp)
    have hset : Amp.setAmplitude { pe with fa := List.replicate pe.lines.length none, fastd := List.replicate pe.lines.length none }
        (some (max 0 a.dtm / a.mtm)) (some (1 / sq a.mtm)) = Amp.setAmplitude pe (some (max 0 a.dtm / a.mtm)) (some (1 / sq a.mtm)) := rfl
    obtain ⟨pe', q1, q2, q3, q4⟩ := Amp.C67_set pe (max 0 a.dtm / a.mtm) (some (1 / sq a.mtm)) hw hg
    rw [hset, q1, Res.bind_ok]
    have hquad : ∀ A', 0 ≤ A' → chi2Tot obs pe.isEmission (nomOf pe) line A' =
        chi2Tot obs pe.isEmission (nomOf pe) line 0 + a.mtm * A' ^ 2 - 2 * a.dtm * A' := by
      intro A' hA'
      rw [chi2Tot_quad pe.isEmission (nomOf pe) hn' line A' hA' obs (fun o ho => (hv o ho).1), ← h3, ← h4]
      ring
    have hAm : max 0 a.dtm / a.mtm * a.mtm = max 0 a.dtm := div_mul_cancel₀ _ hm0
    refine ⟨pe', _, rfl, Or.inr ⟨_, a.mtm, a.dtm, rfl, hmp, hA, q1, ?_, hquad, hAm⟩⟩
    intro A' hA' hne
    rw [hquad _ hA, hquad A' hA']
    generalize hAe : max 0 a.dtm / a.mtm = A at *
    have hsq : 0 < (A' - A) ^ 2 := by
      have : A' - A ≠ 0 := sub_ne_zero.2 hne
      positivity
    have hd : 0 ≤ (A' - A) * (A * a.mtm - a.dtm) := by
      rw [hAm]
      rcases le_total a.dtm 0 with hd | hd
      · rw [max_eq_left hd] at hAm ⊢
        have : A = 0 := (mul_eq_zero.1 hAm).resolve_right hm0
        rw [this]
        exact mul_nonneg (by linarith) (by linarith)
      · rw [max_eq_right hd]; simp
    have := mul_pos hmp hsq
    nlinarith

/-- **C73, fast merit.** When the element is an emission element with a line in range of non null nominal amplitude, the fast merit
of the fitted element is the decrease of chi2 brought by the element. -/
theorem C73_merit (sq : K → K) (obs : List (Obs K)) (pe : Amp.Elt K) (line : Option Nat) (hw : Amp.WF pe)
    (hv : ∀ o ∈ obs, Valid o pe.lines.length ∧ Apart o.elt) (hn : ∀ x ∈ pe.nominal, 0 ≤ x) (hg : pe.gOutside = false)
    (ho : ∃ o ∈ obs, o.elt.outside = false) (he : pe.isEmission = true) (i : Nat) (x : K) (hx : pe.nominal[i]? = some x) (hx0 : x ≠ 0)
    (hi : pe.gOutsideLine[i]? = some false) (pe' : Amp.Elt K) (s : Sums K) (hf : fitAmplitude sq obs pe line = .ok (pe', s))
    (hs : s.gauss ≠ none) :
    ∃ A, Amp.elementAmplitude pe' = .ok (some A) ∧ 0 ≤ A ∧
      meritFast pe' s = .ok (some (chi2Tot obs true (nomOf pe) line A - chi2Tot obs true (nomOf pe) line 0)) := by
  obtain ⟨pe'', s', h1, h2⟩ := C73_fit sq obs pe line hw hv hn hg ho
  rw [hf] at h1
  obtain ⟨rfl, rfl⟩ := Prod.mk.inj (Res.ok.inj h1)
  rcases h2 with ⟨rfl, _⟩ | ⟨A, mtm, dtm, rfl, hm, hA, hset, _, hquad, hAm⟩
  · exact absurd rfl hs
  · obtain ⟨pe2, k1, k2⟩ := Amp.C67_get_set pe A (some (1 / sq mtm)) hw hg (Or.inl he) i x hx hx0 hi
    rw [hset] at k1
    cases k1
    refine ⟨A, k2, hA, ?_⟩
    unfold meritFast
    rw [k2, Res.bind_ok]
    simp only [Amp.vMul, Amp.vAdd, Res.ok.injEq, Option.some.injEq]
    rw [he] at hquad
    rw [hquad A hA]
    rcases le_total dtm 0 with hd | hd
    · rw [max_eq_left hd] at hAm ⊢
      have : A = 0 := (mul_eq_zero.1 hAm).resolve_right (ne_of_gt hm)
      rw [this]; ring
    · rw [max_eq_right hd]; ring

/-- **C73, offset search.** The search keeps the first offset of smallest merit, among the numbers below `big`, and none when there is none. -/
theorem C73_offset (fit : Nat → Res (Option K)) (big : K) (n : Nat) (m : Nat → Option K) (hm : ∀ i, i < n → fit i = .ok (m i)) :
    ∃ b j, bestOffset fit big n = .ok (b, j) ∧
      ((j = none ∧ b = big ∧ ∀ i x, i < n → m i = some x → big ≤ x) ∨
        (∃ k, j = some k ∧ k < n ∧ m k = some b ∧ b < big ∧ (∀ i x, i < n → m i = some x → b ≤ x) ∧ ∀ i x, i < k → m i = some x → b < x)) := by
  unfold bestOffset
  obtain ⟨s, h1, h2⟩ := Res.foldN_inv (fun i (s : K × Option Nat) =>
      ((s.2 = none ∧ s.1 = big ∧ ∀ l x, l < i → m l = some x → big ≤ x) ∨
        (∃ k, s.2 = some k ∧ k < i ∧ m k = some s.1 ∧ s.1 < big ∧ (∀ l x, l < i → m l = some x → s.1 ≤ x) ∧
          ∀ l x, l < k → m l = some x → s.1 < x))) n 0 (big, none)
    (Or.inl ⟨rfl, rfl, by intro l x h; omega⟩)
    (f := fun i s => fit i >>= fun m => match m with
      | some x => if x < s.1 then .ok (x, some i) else .ok s
      | none => .ok s)
    (by
      rintro i ⟨b, j⟩ _ hi hP
      rw [hm i (by omega), Res.bind_ok]
      cases hmi : m i with
      | none =>
        refine ⟨_, rfl, ?_⟩
        rcases hP with ⟨h1, h2, h3⟩ | ⟨k, h1, h2, h3, h4, h5, h6⟩
        · refine Or.inl ⟨h1, h2, ?_⟩
          intro l x hl hx
          rcases Nat.lt_succ_iff_lt_or_eq.1 hl with h | rfl
          · exact h3 l x h hx
          · rw [hmi] at hx; cases hx
        · refine Or.inr ⟨k, h1, by omega, h3, h4, ?_, h6⟩
          intro l x hl hx
          rcases Nat.lt_succ_iff_lt_or_eq.1 hl with h | rfl
          · exact h5 l x h hx
          · rw [hmi] at hx; cases hx
      | some y =>
        simp only
        by_cases hy : y < b
        · rw [if_pos hy]
          refine ⟨_, rfl, Or.inr ⟨i, rfl, by omega, hmi, ?_, ?_, ?_⟩⟩
          · rcases hP with ⟨_, h2, _⟩ | ⟨k, _, _, _, h4, _⟩
            · simp only at h2; rw [← h2]; exact hy
            · exact lt_trans hy h4
          · intro l x hl hx
            rcases Nat.lt_succ_iff_lt_or_eq.1 hl with h | rfl
            · rcases hP with ⟨_, h2, h3⟩ | ⟨k, _, _, _, _, h5, _⟩
              · simp only at h2; exact le_of_lt (lt_of_lt_of_le (by rw [← h2]; exact hy) (h3 l x h hx))
              · exact le_of_lt (lt_of_lt_of_le hy (h5 l x h hx))
            · rw [hmi] at hx; cases hx; exact le_refl _
          · intro l x hl hx
            rcases hP with ⟨_, h2, h3⟩ | ⟨k, _, _, _, _, h5, _⟩
            · simp only at h2; exact lt_of_lt_of_le (by rw [← h2]; exact hy) (h3 l x hl hx)
            · exact lt_of_lt_of_le hy (h5 l x hl hx)
        · rw [if_neg hy]
          refine ⟨_, rfl, ?_⟩
          rcases hP with ⟨h1, h2, h3⟩ | ⟨k, h1, h2, h3, h4, h5, h6⟩
          · refine Or.inl ⟨h1, h2, ?_⟩
            intro l x hl hx
            rcases Nat.lt_succ_iff_lt_or_eq.1 hl with h | rfl
            · exact h3 l x h hx
            · rw [hmi] at hx; cases hx; simp only at h2; rw [← h2]; exact not_lt.1 hy
          · refine Or.inr ⟨k, h1, by omega, h3, h4, ?_, h6⟩
            intro l x hl hx
            rcases Nat.lt_succ_iff_lt_or_eq.1 hl with h | rfl
            · exact h5 l x h hx
            · rw [hmi] at hx; cases hx; exact not_lt.1 hy)
  rw [Nat.zero_add] at h2
  exact ⟨s.1, s.2, h1, h2⟩

/-- **C73, out of range.** When no spectrum sees the element the fit sets the sums to NaN and leaves the amplitudes as they were. -/
theorem C73_outside (sq : K → K) (obs : List (Obs K)) (pe : Amp.Elt K) (line : Option Nat) (ho : ∀ o ∈ obs, o.elt.outside = true) :
    fitAmplitude sq obs pe line = .ok (pe, ⟨none, none, none⟩) := by
  unfold fitAmplitude
  rw [if_pos (List.all_eq_true.2 ho)]

/-- The observations prepared by `prepareSupport` are valid. -/
theorem valid_of_prepare (o : Obs K) (hs : SAxis.Increasing o.axis) (hne : o.axis ≠ []) (lr : Range K) (lines : List (LineGeom K))
    (he : prepareSupport o.axis lr lines = .ok o.elt) (hc : o.cont.length = o.axis.length) (hf : o.flux.length = o.axis.length)
    (hr : o.err.length = o.axis.length) (h0 : ∀ s ∈ o.err, s ≠ 0) : Valid o lines.length := by
  obtain ⟨e', h1, h2, _⟩ := C71_groups o.axis hs hne lr lines
  rw [he] at h1
  cases h1
  exact ⟨h2, hc, hf, hr, h0, fun k hk h => support_bounds hs hne he hk h⟩

/-- An element with two lines sharing one end sample (support 2 to 4 and 4 to 6, as `prepareSupport` leaves them). -/
def shared : Elt := ⟨2, fun k => if k = 0 then ⟨2, 4, false⟩ else ⟨4, 6, false⟩,
  ⟨fun k => if k = 0 then 2 else 4, fun k => if k = 0 then 4 else 6, fun a b => decide (a = b)⟩⟩

/-- The parameters of an emission element with two lines of nominal amplitude 1. -/
def sharedPe : Amp.Elt ℚ := ⟨[⟨"a", .weak⟩, ⟨"b", .weak⟩], .emission, true, [1, 1], [none, none], [none, none], 1, false, [false, false],
  false, [false, false]⟩

/-- Flat profiles; the flux is exactly the model of the element for the amplitude `1`. -/
def sharedObs : Obs ℚ := ⟨[0, 1, 2, 3, 4, 5, 6, 7, 8], [0, 0, 0, 0, 0, 0, 0, 0, 0], [0, 0, 1, 1, 2, 1, 1, 0, 0],
  [1, 1, 1, 1, 1, 1, 1, 1, 1], shared, fun _ _ => 1⟩

/-- **C73 fails when two supports share a sample** (see C71): the flux is exactly what the element adds to the model with amplitude 1, and the
fit gives 4/3, because the shared sample counts twice, each time against one line only. -/
theorem C73_shared_sample_counterexample :
    (prepareSupport sharedObs.axis ⟨0, 8⟩ [⟨true, 3, 2⟩, ⟨true, 5, 2⟩]).bind (fun e => .ok (e.getSupport, [e.sup.act 0 1, e.sup.act 1 0])) =
      .ok ([(2, 4), (4, 6)], [false, false]) ∧
    modelOf sharedObs true (nomOf sharedPe) none 1 = sharedObs.flux ∧
    (fitAmplitude id [sharedObs] sharedPe none).bind (fun r => Amp.elementAmplitude r.1) = .ok (some (4 / 3)) := by
  decide +kernel

/-- Example for C73: one line seen by two spectra with different errors; the unit model is 1 on samples 2 to 4. -/
def exObs (y s : ℚ) : Obs ℚ := ⟨[0, 1, 2, 3, 4, 5, 6], [0, 0, 0, 0, 0, 0, 0], [0, 0, y, y, y, 0, 0], [s, s, s, s, s, s, s],
  ⟨1, fun _ => ⟨2, 4, false⟩, ⟨fun _ => 2, fun _ => 4, fun a b => decide (a = b)⟩⟩, fun _ _ => 1⟩

def exPe : Amp.Elt ℚ := ⟨[⟨"a", .weak⟩], .emission, true, [1], [none], [none], 1, false, [false], false, [false]⟩

example : Valid (exObs 3 2) 1 ∧ Apart (exObs 3 2).elt ∧ (exObs 3 2).elt.outside = false := by
  refine ⟨⟨rfl, rfl, rfl, rfl, by intro s hs; simp [exObs] at hs; rw [hs]; norm_num, ?_⟩, ?_, by decide⟩
  · intro k _ _; simp [exObs]
  · intro i j p hi hj _ _
    have h1 := hi.1
    have h2 := hj.1
    simp [exObs] at h1 h2
    omega

example : (fitAmplitude id [exObs 3 1, exObs 1 (1 / 2)] exPe none).bind (fun r => .ok (r.1.fa, r.1.fastd, r.2)) =
    .ok ([some (7 / 5)], [some (1 / 15)], ⟨some 21, some 15, some 21⟩) := by decide +kernel

end FitAmp
end Amazed
