import Verif.Props.RangeProps
import Verif.Props.TplCombFit

/-! # Template combination: C133 (rebinned range), C134 (fit at one redshift), C135 (amplitudes) -/

set_option linter.unusedSectionVars false
set_option linter.unusedVariables false

namespace Amazed
namespace TplComb

open TplFit

variable {K : Type} [Field K] [LinearOrder K] [IsStrictOrderedRing K]

/-! ## C133: the range -/

/-- A wavelength is covered by a list of wavelengths: it is between the first and the last one. -/
def Covered (l : List K) (x : K) : Prop := ∃ a b, l.head? = some a ∧ l.getLast? = some b ∧ a ≤ x ∧ x ≤ b

/-- Each template has its rebinned flux, whose mask keeps at least the required fraction of the samples of the range `r`. -/
def RebinnedBy (reb : Tp K → Range K → List K → Res (List K × List Nat)) (rest : List K) (r : Range K) (thr : K) (tpls : List (Tp K)) (fluxes : List (List K)) : Prop :=
  List.Forall₂ (fun t f => ∃ inter m ov, reb t inter rest = .ok (f, m) ∧ SAxis.overlapFraction rest r m = .ok ov ∧ thr ≤ ov ∧ 0 < ov) tpls fluxes

theorem clamp_mem {l : List K} {r s : Range K} (h : SAxis.clampLambdaRange l r = .ok s) :
    s.b < s.e ∧ ∀ x, s.Mem x ↔ r.Mem x ∧ Covered l x := by
  unfold SAxis.clampLambdaRange at h
  simp only at h
  by_cases h1 : r.isEmpty = true
  · rw [if_pos h1] at h; cases h
  rw [if_neg h1] at h
  by_cases h2 : (SAxis.lambdaRange l).isEmpty = true
  · rw [if_pos h2] at h; cases h
  rw [if_neg h2] at h
  by_cases h3 : (if r.e > (SAxis.lambdaRange l).e then (SAxis.lambdaRange l).e else r.e) - (if r.b < (SAxis.lambdaRange l).b then (SAxis.lambdaRange l).b else r.b) ≤ 0
  · rw [if_pos h3] at h; cases h
  rw [if_neg h3] at h
  cases h
  have hl : 2 ≤ l.length := by
    by_contra hc
    unfold SAxis.lambdaRange at h2
    rw [dif_pos (by omega)] at h2
    simp [Range.isEmpty] at h2
  have e1 : SAxis.lambdaRange l = ⟨l[0], l[l.length - 1]⟩ := by unfold SAxis.lambdaRange; rw [dif_neg (by omega)]
  rw [e1] at h3 ⊢
  refine ⟨by push Not at h3; simp only at h3 ⊢; linarith, fun x => ?_⟩
  have hc : Covered l x ↔ l[0] ≤ x ∧ x ≤ l[l.length - 1] := by
    unfold Covered
    rw [List.head?_eq_getElem?, List.getLast?_eq_getElem?, List.getElem?_eq_getElem (by omega), List.getElem?_eq_getElem (by omega)]
    simp
  rw [hc]
  unfold Range.Mem
  simp only
  by_cases c1 : r.b < l[0] <;> by_cases c2 : r.e > l[l.length - 1]
  · rw [if_pos c1, if_pos c2]
    constructor
    · rintro ⟨a, b⟩; exact ⟨⟨by linarith, by linarith⟩, a, b⟩
    · rintro ⟨_, a, b⟩; exact ⟨a, b⟩
  · rw [if_pos c1, if_neg c2]
    push Not at c2
    constructor
    · rintro ⟨a, b⟩; exact ⟨⟨by linarith, by linarith⟩, a, by linarith⟩
    · rintro ⟨⟨_, a⟩, b, _⟩; exact ⟨b, a⟩
  · rw [if_neg c1, if_pos c2]
    push Not at c1
    constructor
    · rintro ⟨a, b⟩; exact ⟨⟨by linarith, by linarith⟩, by linarith, b⟩
    · rintro ⟨⟨a, _⟩, _, b⟩; exact ⟨a, b⟩
  · rw [if_neg c1, if_neg c2]
    push Not at c1 c2
    constructor
    · rintro ⟨a, b⟩; exact ⟨⟨a, b⟩, by linarith, by linarith⟩
    · rintro ⟨⟨a, c⟩, _⟩; exact ⟨a, c⟩

theorem intersect_mem {r s out : Range K} : (∀ x, r.Mem x → s.Mem x → (Range.intersect r s out).2.Mem x) ∧
    ((∃ x, r.Mem x ∧ s.Mem x) → ∀ x, (Range.intersect r s out).2.Mem x ↔ r.Mem x ∧ s.Mem x) := by
  have key : (∃ x, r.Mem x ∧ s.Mem x) → ∀ x, (Range.intersect r s out).2.Mem x ↔ r.Mem x ∧ s.Mem x := by
    rintro ⟨x0, ⟨a, b⟩, c, d⟩ x
    unfold Range.intersect Range.hasIntersection
    rw [if_pos (by rw [decide_eq_true_eq]; exact le_trans (max_le a c) (le_min b d))]
    unfold Range.Mem
    simp only [max_le_iff, le_min_iff]
    tauto
  exact ⟨fun x h1 h2 => (key ⟨x, h1, h2⟩ x).2 ⟨h1, h2⟩, key⟩

theorem intersectWith_sub {r s : Range K} {x : K} (h : (Range.intersect r s r).2.Mem x) : r.Mem x := by
  unfold Range.intersect at h
  split at h
  · unfold Range.Mem at h ⊢
    simp only [max_le_iff, le_min_iff] at h
    exact ⟨h.1.1, h.2.1⟩
  · exact h

theorem rebinLoop_spec {reb : Tp K → Range K → List K → Res (List K × List Nat)} {rest : List K} {lr sr : Range K} {thr : K} :
    ∀ (tpls : List (Tp K)) (r0 r : Rebinned K), rebinLoop reb rest lr sr thr tpls r0 = .ok r →
      (∃ fs, r.fluxes = r0.fluxes ++ fs ∧ RebinnedBy reb rest lr thr tpls fs) ∧ (∀ x, r.range.Mem x → r0.range.Mem x) ∧
      ((∃ x0, r0.range.Mem x0 ∧ sr.Mem x0 ∧ lr.Mem x0 ∧ ∀ t ∈ tpls, Covered t.1 x0) → (∀ x, r0.range.Mem x → sr.Mem x ∧ lr.Mem x) →
        ∀ x, r.range.Mem x ↔ r0.range.Mem x ∧ ∀ t ∈ tpls, Covered t.1 x) ∧
      (tpls ≠ [] → ∃ ov, r.overlap = some ov ∧ thr ≤ ov ∧ 0 < ov) := by
  intro tpls
  induction tpls with
  | nil =>
    intro r0 r h
    cases h
    exact ⟨⟨[], by simp, .nil⟩, fun x h => h, fun _ _ x => by simp, fun h => absurd rfl h⟩
  | cons t ts ih =>
    intro r0 r h
    unfold rebinLoop at h
    obtain ⟨tr, h1, h⟩ := Res.bind_eq_ok.1 h
    simp only at h
    obtain ⟨fm, h2, h⟩ := Res.bind_eq_ok.1 h
    obtain ⟨ov, h3, h⟩ := Res.bind_eq_ok.1 h
    by_cases hc : ov < thr ∨ ov ≤ 0
    · rw [if_pos hc] at h; cases h
    rw [if_neg hc] at h
    push Not at hc
    obtain ⟨c1, c2⟩ := clamp_mem h1
    obtain ⟨⟨fs, i1, i2⟩, i3, i4, i5⟩ := ih _ r h
    refine ⟨⟨fm.1 :: fs, by rw [i1]; simp, .cons ⟨_, fm.2, ov, h2, h3, hc.1, hc.2⟩ i2⟩, fun x hx => intersectWith_sub (i3 x hx), ?_, fun _ => ?_⟩
    · rintro ⟨x0, g1, g2, g3, g4⟩ hsub x
      have k1 := (intersect_mem (r := tr) (s := sr) (out := ⟨0, 0⟩)).2 ⟨x0, (c2 x0).2 ⟨g3, g4 t (by simp)⟩, g2⟩
      have k2 := (intersect_mem (r := r0.range) (s := (Range.intersect tr sr ⟨0, 0⟩).2) (out := r0.range)).2
        ⟨x0, g1, (k1 x0).2 ⟨(c2 x0).2 ⟨g3, g4 t (by simp)⟩, g2⟩⟩
      have hk : ∀ y, (Range.intersect r0.range (Range.intersect tr sr ⟨0, 0⟩).2 r0.range).2.Mem y ↔ r0.range.Mem y ∧ Covered t.1 y := by
        intro y
        rw [k2 y, k1 y, c2 y]
        constructor
        · rintro ⟨a, ⟨b, c⟩, d⟩; exact ⟨a, c⟩
        · rintro ⟨a, b⟩; exact ⟨a, ⟨(hsub y a).2, b⟩, (hsub y a).1⟩
      have := i4 ⟨x0, (hk x0).2 ⟨g1, g4 t (by simp)⟩, g2, g3, fun t' ht' => g4 t' (by simp [ht'])⟩ (fun y hy => hsub y ((hk y).1 hy).1) x
      rw [this]
      simp only [hk, List.mem_cons, forall_eq_or_imp]
      tauto
    · cases ts with
      | nil => cases h; exact ⟨ov, rfl, hc.1, hc.2⟩
      | cons t' ts => exact i5 (by simp)

/-- **C133** Whenever the templates are rebinned, there is one flux for each template, made from that template, with at least the required (and a positive) fraction
of the samples of the lambda range; every wavelength of the range of the fit is in the rest frame lambda range and covered by the spectrum; and when some wavelength is
common to all of them, the range of the fit is exactly what the lambda range, the spectrum and every template have in common. -/
theorem C133_range {reb : Tp K → Range K → List K → Res (List K × List Nat)} {axis : List K} {tpls : List (Tp K)} {z thr : K} {lr : Range K} {r : Rebinned K}
    (h : rebinTemplates reb axis tpls z lr thr = .ok r) :
    0 < 1 + z ∧ RebinnedBy reb (restAxis axis z) ⟨lr.b / (1 + z), lr.e / (1 + z)⟩ thr tpls r.fluxes ∧
    (tpls ≠ [] → ∃ ov, r.overlap = some ov ∧ thr ≤ ov ∧ 0 < ov) ∧
    (∀ x, r.range.Mem x → lr.Mem (x * (1 + z)) ∧ Covered axis (x * (1 + z))) ∧
    ((∃ x, lr.Mem (x * (1 + z)) ∧ Covered axis (x * (1 + z)) ∧ ∀ t ∈ tpls, Covered t.1 x) →
      ∀ x, r.range.Mem x ↔ lr.Mem (x * (1 + z)) ∧ Covered axis (x * (1 + z)) ∧ ∀ t ∈ tpls, Covered t.1 x) := by
  unfold rebinTemplates at h
  by_cases h0 : 1 + z = 0
  · rw [if_pos h0] at h; cases h
  rw [if_neg h0] at h
  by_cases h1 : 1 + z < 0
  · rw [if_pos h1] at h; cases h
  rw [if_neg h1] at h
  have hp : 0 < 1 + z := lt_of_le_of_ne (not_lt.1 h1) (Ne.symm h0)
  simp only at h
  obtain ⟨sr, h2, h⟩ := Res.bind_eq_ok.1 h
  obtain ⟨c1, c2⟩ := clamp_mem h2
  obtain ⟨⟨fs, i1, i2⟩, i3, i4, i5⟩ := rebinLoop_spec tpls _ r h
  simp only [List.nil_append] at i1
  subst i1
  have hm : ∀ x, (⟨lr.b / (1 + z), lr.e / (1 + z)⟩ : Range K).Mem x ↔ lr.Mem (x * (1 + z)) := by
    intro x
    unfold Range.Mem
    simp only
    rw [div_le_iff₀ hp, le_div_iff₀ hp]
  have hcv : ∀ x, Covered (restAxis axis z) x ↔ Covered axis (x * (1 + z)) := by
    intro x
    unfold Covered restAxis
    rw [List.head?_map, List.getLast?_map]
    constructor
    · rintro ⟨a, b, ha, hb, h3, h4⟩
      rw [Option.map_eq_some_iff] at ha hb
      obtain ⟨a', ha, rfl⟩ := ha
      obtain ⟨b', hb, rfl⟩ := hb
      exact ⟨a', b', ha, hb, (div_le_iff₀ hp).1 h3, (le_div_iff₀ hp).1 h4⟩
    · rintro ⟨a, b, ha, hb, h3, h4⟩
      exact ⟨_, _, by rw [ha]; rfl, by rw [hb]; rfl, (div_le_iff₀ hp).2 h3, (le_div_iff₀ hp).2 h4⟩
  have hsr : ∀ x, sr.Mem x ↔ lr.Mem (x * (1 + z)) ∧ Covered axis (x * (1 + z)) := by
    intro x; rw [c2 x, hm x, hcv x]
  refine ⟨hp, i2, i5, fun x hx => (hsr x).1 (i3 x hx), ?_⟩
  rintro ⟨x0, g1, g2, g3⟩ x
  rw [i4 ⟨x0, (hsr x0).2 ⟨g1, g2⟩, (hsr x0).2 ⟨g1, g2⟩, (hm x0).2 g1, g3⟩ (fun y hy => ⟨hy, ((c2 y).1 hy).1⟩) x, hsr x, and_assoc]

/-- **C133** A template with no or too little overlap is refused. -/
theorem C133_overlap {reb : Tp K → Range K → List K → Res (List K × List Nat)} {rest : List K} {lr sr : Range K} {thr : K} {t : Tp K} {ts : List (Tp K)} {r0 : Rebinned K}
    {tr : Range K} {fm : List K × List Nat} {ov : K} (h1 : SAxis.clampLambdaRange t.1 lr = .ok tr) (h2 : reb t (Range.intersect tr sr ⟨0, 0⟩).2 rest = .ok fm)
    (h3 : SAxis.overlapFraction rest lr fm.2 = .ok ov) (h4 : ov < thr ∨ ov ≤ 0) :
    rebinLoop reb rest lr sr thr (t :: ts) r0 = .throw .OVERLAPFRACTION_NOTACCEPTABLE := by
  unfold rebinLoop
  rw [h1, Res.bind_ok]
  simp only
  rw [h2, Res.bind_ok, h3, Res.bind_ok, if_pos h4]

/-- A rebinning used by the examples: the flux of the template at the same index, and the mask of the range. -/
def exReb (t : Tp ℚ) (r : Range ℚ) (rest : List ℚ) : Res (List ℚ × List Nat) :=
  .ok (rest.map (fun x => ((t.1.zip t.2).find? (fun p => decide (p.1 = x))).elim 0 Prod.snd), SAxis.getMask rest r)

/-- **C133 counterexample** (templates with no common wavelength, not refused by this operator): two templates covering each one half of the spectrum, with the threshold
reached by both: the range of the fit is the one of the first template, where the second one has no data, and nothing is reported. -/
theorem C133_disjoint_counterexample :
    ∃ r, rebinTemplates exReb [1, 2, 3, 4] [([1, 2], [5, 6]), ([3, 4], [7, 8])] 0 ⟨1, 4⟩ (1 / 4 : ℚ) = .ok r ∧
      r.range.b = 1 ∧ r.range.e = 2 ∧ r.fluxes = [[5, 6, 0, 0], [0, 0, 7, 8]] := by
  refine ⟨⟨[[5, 6, 0, 0], [0, 0, 7, 8]], ⟨1, 2⟩, some (1 / 2)⟩, ?_, rfl, rfl, rfl⟩
  have e : (match rebinTemplates exReb [1, 2, 3, 4] [([1, 2], [5, 6]), ([3, 4], [7, 8])] 0 ⟨1, 4⟩ (1 / 4 : ℚ) with
    | .ok r => decide (r.fluxes = [[5, 6, 0, 0], [0, 0, 7, 8]]) && decide (r.range = ⟨1, 2⟩) && decide (r.overlap = some (1 / 2)) | _ => false) = true := by
    decide +kernel
  revert e
  cases rebinTemplates exReb [1, 2, 3, 4] [([1, 2], [5, 6]), ([3, 4], [7, 8])] 0 ⟨1, 4⟩ (1 / 4 : ℚ) with
  | ub => intro e; cases e
  | throw _ => intro e; cases e
  | ok r =>
    intro e
    simp only [Bool.and_eq_true, decide_eq_true_eq] at e
    obtain ⟨⟨a, b⟩, c⟩ := e
    cases r
    simp only at a b c
    subst a; subst b; subst c; rfl

-- The hypotheses of `C133_range` hold for templates on one axis, with a range smaller than the spectrum, at a positive redshift.
example : ∃ r, rebinTemplates exReb [2, 4, 6, 8] [([1, 2, 3], [5, 6, 7]), ([1, 2, 3], [7, 8, 9])] 1 ⟨2, 7⟩ (1 / 2 : ℚ) = .ok r ∧ r.range.b = 1 ∧ r.range.e = 3 :=
  by
  have e : (match rebinTemplates exReb [2, 4, 6, 8] [([1, 2, 3], [5, 6, 7]), ([1, 2, 3], [7, 8, 9])] 1 ⟨2, 7⟩ (1 / 2 : ℚ) with
    | .ok r => decide (r.range = ⟨1, 3⟩) | _ => false) = true := by decide +kernel
  revert e
  cases rebinTemplates exReb [2, 4, 6, 8] [([1, 2, 3], [5, 6, 7]), ([1, 2, 3], [7, 8, 9])] 1 ⟨2, 7⟩ (1 / 2 : ℚ) with
  | ub => intro e; cases e
  | throw _ => intro e; cases e
  | ok r =>
    intro e
    exact ⟨r, rfl, by rw [of_decide_eq_true e], by rw [of_decide_eq_true e]⟩

end TplComb
end Amazed
