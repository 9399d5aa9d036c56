import Verif.Model.Classify
import Mathlib.Algebra.BigOperators.Group.List.Lemmas
import Mathlib.Tactic.Ring
import Mathlib.Tactic.Linarith
import Mathlib.Tactic.Positivity
import Mathlib.Tactic.FieldSimp

set_option linter.unusedVariables false

/-! # C66: classification -/

namespace Amazed
namespace Classify

/-- Specification: weight of a category, the exponential of its log evidence, zero for a category without result
or of evidence minus infinity. -/
noncomputable def weight : Stored → ℝ
  | .pdf (.fin x) => Real.exp x
  | _ => 0

/-- Specification: the evidence reported for a category. -/
def reported : Stored → Ev
  | .pdf e => e
  | _ => .ninf

theorem weight_nonneg (s : Stored) : 0 ≤ weight s := by
  unfold weight; split
  · exact (Real.exp_pos _).le
  · exact le_refl _

theorem lookups_ok {method : String → Res String} {solve : String → String → Stored} {mth : String → String} :
    ∀ {cats : List String}, (∀ c ∈ cats, method c = .ok (mth c)) →
    lookups method solve cats = .ok (cats.map fun c => (c, solve c (mth c)))
  | [], _ => rfl
  | c :: cs, h => by
    unfold lookups
    rw [h c (by simp), Res.bind_ok, lookups_ok (fun d hd => h d (by simp [hd])), Res.bind_ok]
    rfl

theorem lookups_throw {method : String → Res String} {solve : String → String → Stored} {e : Err} :
    ∀ {pre : List String} {c : String} {post : List String}, (∀ d ∈ pre, ∃ m, method d = .ok m) → method c = .throw e →
    lookups method solve (pre ++ c :: post) = .throw e
  | [], c, post, _, h => by unfold lookups; simp [h]
  | p :: pre, c, post, h, h2 => by
    obtain ⟨m, hm⟩ := h p (by simp)
    rw [List.cons_append]
    unfold lookups
    rw [hm, Res.bind_ok, lookups_throw (fun d hd => h d (by simp [hd])) h2]
    rfl

/-- The scan for the maximum: it returns the initial pair when nothing is above it, or the first largest. -/
theorem maxLoop_spec (st : String → Stored) : ∀ (cs : List String) (m : ℝ) (l : String),
    (∀ c ∈ cs, st c ≠ .notPdf) →
    ∃ m' l', maxLoop (cs.map fun c => (c, st c)) (m, l) = .ok (m', l') ∧ m ≤ m' ∧
      (∀ c ∈ cs, ∀ y, st c = .pdf (.fin y) → y ≤ m') ∧
      ((m' = m ∧ l' = l) ∨ (m < m' ∧ ∃ i : Nat, cs[i]? = some l' ∧ st l' = .pdf (.fin m') ∧
        ∀ (j : Nat) d y, cs[j]? = some d → st d = .pdf (.fin y) → j < i → y < m'))
  | [], m, l, _ => ⟨m, l, rfl, le_refl _, by simp, Or.inl ⟨rfl, rfl⟩⟩
  | c :: cs, m, l, h => by
    have ih := maxLoop_spec st cs
    have hcs : ∀ d ∈ cs, st d ≠ .notPdf := fun d hd => h d (by simp [hd])
    -- the pair after this category
    have key : ∃ m1 l1, maxLoop (((c :: cs)).map fun c => (c, st c)) (m, l) = maxLoop (cs.map fun c => (c, st c)) (m1, l1) ∧
        m ≤ m1 ∧ (∀ y, st c = .pdf (.fin y) → y ≤ m1) ∧ ((m1 = m ∧ l1 = l) ∨ (m < m1 ∧ l1 = c ∧ st c = .pdf (.fin m1))) := by
      simp only [List.map_cons]
      cases hc : st c with
      | absent => exact ⟨m, l, by simp [maxLoop], le_refl _, by simp, Or.inl ⟨rfl, rfl⟩⟩
      | notPdf => exact absurd hc (h c (by simp))
      | pdf e =>
        cases e with
        | ninf => exact ⟨m, l, by simp [maxLoop], le_refl _, by simp, Or.inl ⟨rfl, rfl⟩⟩
        | nan => exact ⟨m, l, by simp [maxLoop], le_refl _, by simp, Or.inl ⟨rfl, rfl⟩⟩
        | fin x =>
          by_cases hx : x > m
          · exact ⟨x, c, by simp [maxLoop, evGt, hx], hx.le, by simp, Or.inr ⟨hx, rfl, rfl⟩⟩
          · refine ⟨m, l, by simp [maxLoop, evGt, hx], le_refl _, ?_, Or.inl ⟨rfl, rfl⟩⟩
            intro y hy
            simp only [Stored.pdf.injEq, Ev.fin.injEq] at hy
            rw [← hy]; exact not_lt.1 hx
    obtain ⟨m1, l1, e1, hm1, hc1, hcase⟩ := key
    obtain ⟨m2, l2, e2, hm2, hall, hcase2⟩ := ih m1 l1 hcs
    refine ⟨m2, l2, by rw [e1, e2], hm1.trans hm2, ?_, ?_⟩
    · intro d hd y hy
      rcases List.mem_cons.1 hd with rfl | hd
      · exact (hc1 y hy).trans hm2
      · exact hall d hd y hy
    · rcases hcase2 with ⟨rfl, rfl⟩ | ⟨hlt, i, hi, hst, hj⟩
      · rcases hcase with ⟨rfl, rfl⟩ | ⟨h1, rfl, h3⟩
        · exact Or.inl ⟨rfl, rfl⟩
        · refine Or.inr ⟨h1, 0, by simp, h3, ?_⟩
          intro j d y _ _ hj; omega
      · refine Or.inr ⟨lt_of_le_of_lt hm1 hlt, i + 1, by simpa using hi, hst, ?_⟩
        intro j d y hd hy hlt'
        cases j with
        | zero =>
          simp only [List.getElem?_cons_zero, Option.some.injEq] at hd
          subst hd
          exact lt_of_le_of_lt (hc1 y hy) hlt
        | succ j =>
          simp only [List.getElem?_cons_succ] at hd
          exact hj j d y hd hy (by omega)

theorem sumLoop_spec (st : String → Stored) (m : ℝ) : ∀ (cs : List String) (s : ℝ),
    (∀ c ∈ cs, st c ≠ .pdf .nan) →
    sumLoop m (cs.map fun c => (c, st c)) (some s) = some (s + (cs.map fun c => weight (st c)).sum * Real.exp (-m))
  | [], s, _ => by simp [sumLoop]
  | c :: cs, s, h => by
    have ih := fun s => sumLoop_spec st m cs s (fun d hd => h d (by simp [hd]))
    simp only [List.map_cons, List.sum_cons]
    cases hc : st c with
    | absent => simp only [sumLoop, weight, ih]; ring_nf
    | notPdf => simp only [sumLoop, weight, ih]; ring_nf
    | pdf e =>
      cases e with
      | nan => exact absurd hc (h c (by simp))
      | ninf => simp only [sumLoop, weight, expEv, addNan, ih]; ring_nf
      | fin x =>
        simp only [sumLoop, weight, expEv, addNan, ih]
        rw [sub_eq_add_neg, Real.exp_add]
        ring_nf

theorem sumLoop_none (st : String → Stored) (m : ℝ) : ∀ (cs : List String), 
    sumLoop m (cs.map fun c => (c, st c)) none = none
  | [] => rfl
  | c :: cs => by
    have ih := sumLoop_none st m cs
    simp only [List.map_cons]
    cases hc : st c with
    | absent => simpa [sumLoop] using ih
    | notPdf => simpa [sumLoop] using ih
    | pdf e => cases e <;> simpa [sumLoop, addNan, expEv] using ih

theorem sumLoop_nan (st : String → Stored) (m : ℝ) : ∀ (cs : List String) (s : Option ℝ) (c : String), c ∈ cs → st c = .pdf .nan →
    sumLoop m (cs.map fun c => (c, st c)) s = none
  | [], _, c, h, _ => by simp at h
  | d :: cs, s, c, h, hc => by
    simp only [List.map_cons]
    rcases List.mem_cons.1 h with rfl | h
    · rw [hc]; cases s <;> simp [sumLoop, addNan, expEv, sumLoop_none]
    · have ih := fun s => sumLoop_nan st m cs s c h hc
      cases hd : st d with
      | absent => simpa [sumLoop] using ih s
      | notPdf => simpa [sumLoop] using ih s
      | pdf e => simpa [sumLoop] using ih _

theorem fill_notin (st : String → Stored) (m : ℝ) (t : Option ℝ) : ∀ (cs : List String) (r : Result) (c : String), c ∉ cs →
    (fill m t (cs.map fun c => (c, st c)) r).proba c = r.proba c ∧
    (fill m t (cs.map fun c => (c, st c)) r).evidence c = r.evidence c
  | [], r, c, _ => ⟨rfl, rfl⟩
  | d :: cs, r, c, h => by
    have hd : c ≠ d := fun e => h (by simp [e])
    have hcs : c ∉ cs := fun e => h (by simp [e])
    simp only [List.map_cons]
    cases hs : st d <;> simp only [fill] <;>
      · rw [(fill_notin st m t cs _ c hcs).1, (fill_notin st m t cs _ c hcs).2]
        simp [Function.update_of_ne hd]

/-- What is reported for a category. -/
noncomputable def probaOf (m : ℝ) (t : Option ℝ) : Stored → Option ℝ
  | .pdf e => divNan (expEv e m) t
  | _ => some 0

theorem fill_in (st : String → Stored) (m : ℝ) (t : Option ℝ) : ∀ (cs : List String) (r : Result) (c : String), c ∈ cs →
    (fill m t (cs.map fun c => (c, st c)) r).proba c = some (probaOf m t (st c)) ∧
    (fill m t (cs.map fun c => (c, st c)) r).evidence c = some (reported (st c))
  | [], r, c, h => by simp at h
  | d :: cs, r, c, h => by
    simp only [List.map_cons]
    by_cases hcs : c ∈ cs
    · cases hs : st d <;> simp only [fill] <;> exact fill_in st m t cs _ c hcs
    · have hd : c = d := by simpa [hcs] using h
      subst hd
      cases hs : st c <;> simp only [fill] <;>
      · rw [(fill_notin st m t cs _ c hcs).1, (fill_notin st m t cs _ c hcs).2]
        simp [probaOf, reported]

theorem sum_map_const_mul (cs : List String) (f : String → ℝ) (a : ℝ) :
    (cs.map fun c => f c * a).sum = (cs.map f).sum * a := List.sum_map_mul_right _ _ _

/-- C66 (main statement). Each method parameter present, every stored result is a PDF result with an
evidence which is a number above `-DBL_MAX` or minus infinity, and at least one is a number: the classification returns
a result; each category gets the probability `exp(evidence) / Σ exp(evidence)` (zero without result) and its evidence;
the probabilities are between 0 and 1 and add up to one over the list of categories; the label is the first category of largest evidence, and no
category has a larger probability. -/
theorem C66_classify (label : String) (cats : List String) (method : String → Res String)
    (solve : String → String → Stored) (mth : String → String)
    (hm : ∀ c ∈ cats, method c = .ok (mth c))
    (hpdf : ∀ c ∈ cats, solve c (mth c) ≠ .notPdf) (hnan : ∀ c ∈ cats, solve c (mth c) ≠ .pdf .nan)
    (hbig : ∀ c ∈ cats, ∀ x, solve c (mth c) = .pdf (.fin x) → -Pdfz.dblMax < x)
    (hex : ∃ c ∈ cats, ∃ x, solve c (mth c) = .pdf (.fin x)) :
    ∃ r, compute label cats method solve = .ok r ∧
      (∀ c ∈ cats, r.evidence c = some (reported (solve c (mth c)))) ∧
      (∀ c ∈ cats, r.proba c =
        some (some (weight (solve c (mth c)) / (cats.map fun d => weight (solve d (mth d))).sum))) ∧
      (∀ c ∈ cats, 0 ≤ weight (solve c (mth c)) / (cats.map fun d => weight (solve d (mth d))).sum ∧
        weight (solve c (mth c)) / (cats.map fun d => weight (solve d (mth d))).sum ≤ 1) ∧
      (cats.map fun c => weight (solve c (mth c)) / (cats.map fun d => weight (solve d (mth d))).sum).sum = 1 ∧
      (∀ c, c ∉ cats → r.proba c = none ∧ r.evidence c = none) ∧
      (∃ (i : Nat) (x : ℝ), cats[i]? = some r.label ∧ solve r.label (mth r.label) = .pdf (.fin x) ∧
        ∀ (j : Nat) d y, cats[j]? = some d → solve d (mth d) = .pdf (.fin y) → y ≤ x ∧ (j < i → y < x)) ∧
      (∀ c ∈ cats, weight (solve c (mth c)) ≤ weight (solve r.label (mth r.label))) := by
  obtain ⟨m, l, e1, h1, hall, hcase⟩ := maxLoop_spec (fun c => solve c (mth c)) cats (-Pdfz.dblMax) label hpdf
  obtain ⟨c0, hc0, x0, hx0⟩ := hex
  have hlt : -Pdfz.dblMax < m := lt_of_lt_of_le (hbig c0 hc0 x0 hx0) (hall c0 hc0 x0 hx0)
  rcases hcase with ⟨h2, _⟩ | ⟨_, i, hi, hst, hj⟩
  · exact absurd h2 (ne_of_gt hlt)
  have hlmem : l ∈ cats := List.mem_of_getElem? hi
  set W := (cats.map fun d => weight (solve d (mth d))).sum with hW
  have hsum := sumLoop_spec (fun c => solve c (mth c)) m cats 0 hnan
  rw [← hW, zero_add] at hsum
  have hle : ∀ c ∈ cats, weight (solve c (mth c)) ≤ W := by
    intro c hc
    exact List.single_le_sum (by intro y hy; obtain ⟨d, _, rfl⟩ := List.mem_map.1 hy; exact weight_nonneg _) _
      (List.mem_map.2 ⟨c, hc, rfl⟩)
  have hWpos : 0 < W := lt_of_lt_of_le (by rw [hst]; exact Real.exp_pos _) (hle l hlmem)
  have htpos : 0 < W * Real.exp (-m) := mul_pos hWpos (Real.exp_pos _)
  have hw : ∀ c ∈ cats, probaOf m (some (W * Real.exp (-m))) (solve c (mth c)) = some (weight (solve c (mth c)) / W) := by
    intro c hc
    cases hs : solve c (mth c) with
    | absent => simp [probaOf, weight]
    | notPdf => simp [probaOf, weight]
    | pdf e =>
      cases e with
      | nan => exact absurd hs (hnan c hc)
      | ninf => simp [probaOf, weight, expEv, divNan]
      | fin x =>
        simp only [probaOf, weight, expEv, divNan, Option.some.injEq]
        rw [sub_eq_add_neg, Real.exp_add, mul_div_mul_right _ _ (Real.exp_pos _).ne']
  refine ⟨{ fill m (some (W * Real.exp (-m))) (cats.map fun c => (c, solve c (mth c))) ⟨"", fun _ => none, fun _ => none⟩ with label := l }, ?_, ?_, ?_, ?_, ?_, ?_, ?_, ?_⟩
  · unfold compute
    rw [lookups_ok hm, Res.bind_ok, e1, Res.bind_ok]
    simp only [hsum]
    rw [if_neg (not_le.2 htpos)]
  · intro c hc
    exact (fill_in (fun c => solve c (mth c)) m _ cats _ c hc).2
  · intro c hc
    show (fill _ _ _ _).proba c = _
    rw [(fill_in (fun c => solve c (mth c)) m _ cats _ c hc).1, hw c hc]
  · intro c hc
    exact ⟨div_nonneg (weight_nonneg _) hWpos.le, (div_le_one hWpos).2 (hle c hc)⟩
  · simp only [div_eq_mul_inv]
    rw [sum_map_const_mul, ← hW]
    exact mul_inv_cancel₀ hWpos.ne'
  · intro c hc
    exact fill_notin (fun c => solve c (mth c)) m _ cats _ c hc
  · refine ⟨i, m, hi, hst, ?_⟩
    intro j d y hd hy
    exact ⟨hall d (List.mem_of_getElem? hd) y hy, fun h => hj j d y hd hy h⟩
  · intro c hc
    show _ ≤ weight (solve l (mth l))
    rw [hst]
    cases hs : solve c (mth c) with
    | absent => exact (Real.exp_pos _).le
    | notPdf => exact (Real.exp_pos _).le
    | pdf e =>
      cases e with
      | nan => exact (Real.exp_pos _).le
      | ninf => exact (Real.exp_pos _).le
      | fin x => exact Real.exp_le_exp.2 (hall c hc x hs)

/-- C66: with no evidence which is a number (every category lacks a result or has evidence minus infinity), the
classification stops with the dedicated error. -/
theorem C66_none (label : String) (cats : List String) (method : String → Res String)
    (solve : String → String → Stored) (mth : String → String)
    (hm : ∀ c ∈ cats, method c = .ok (mth c))
    (hno : ∀ c ∈ cats, solve c (mth c) = .absent ∨ solve c (mth c) = .pdf .ninf) :
    compute label cats method solve = .throw .NO_CLASSIFICATION := by
  have hp : ∀ c ∈ cats, solve c (mth c) ≠ .notPdf := by
    intro c hc; rcases hno c hc with h | h <;> rw [h] <;> simp
  obtain ⟨m, l, e1, h1, hall, hcase⟩ := maxLoop_spec (fun c => solve c (mth c)) cats (-Pdfz.dblMax) label hp
  have hn : ∀ c ∈ cats, solve c (mth c) ≠ .pdf .nan := by
    intro c hc; rcases hno c hc with h | h <;> rw [h] <;> simp
  have hsum := sumLoop_spec (fun c => solve c (mth c)) m cats 0 hn
  have h0 : (cats.map fun c => weight (solve c (mth c))).sum = 0 := by
    apply List.sum_eq_zero
    intro y hy
    obtain ⟨c, hc, rfl⟩ := List.mem_map.1 hy
    rcases hno c hc with h | h <;> rw [h] <;> simp [weight]
  rw [h0] at hsum
  unfold compute
  rw [lookups_ok hm, Res.bind_ok, e1, Res.bind_ok]
  simp only [hsum]
  rw [if_pos (by simp)]

/-- C66: a missing method parameter ends the classification with the exception of the look-up. -/
theorem C66_missing (label : String) (pre : List String) (c : String) (post : List String) (method : String → Res String)
    (solve : String → String → Stored) (e : Err) (hpre : ∀ d ∈ pre, ∃ m, method d = .ok m) (hc : method c = .throw e) :
    compute label (pre ++ c :: post) method solve = .throw e := by
  unfold compute
  rw [lookups_throw hpre hc]
  rfl

/-- C66, negative part: one category whose evidence is a NaN makes the probability of every category with a result
a NaN, and no error is reported. -/
theorem C66_nan_counterexample (label : String) (cats : List String) (method : String → Res String)
    (solve : String → String → Stored) (mth : String → String)
    (hm : ∀ c ∈ cats, method c = .ok (mth c)) (hpdf : ∀ c ∈ cats, solve c (mth c) ≠ .notPdf)
    (c0 : String) (hc0 : c0 ∈ cats) (hnan : solve c0 (mth c0) = .pdf .nan) :
    ∃ r, compute label cats method solve = .ok r ∧ ∀ c ∈ cats, ∀ e, solve c (mth c) = .pdf e → r.proba c = some none := by
  obtain ⟨m, l, e1, h1, hall, hcase⟩ := maxLoop_spec (fun c => solve c (mth c)) cats (-Pdfz.dblMax) label hpdf
  have hsum := sumLoop_nan (fun c => solve c (mth c)) m cats (some 0) c0 hc0 hnan
  refine ⟨{ fill m none (cats.map fun c => (c, solve c (mth c))) ⟨"", fun _ => none, fun _ => none⟩ with label := l }, ?_, ?_⟩
  · unfold compute
    rw [lookups_ok hm, Res.bind_ok, e1, Res.bind_ok]
    simp only [hsum]
  · intro c hc e he
    show (fill _ _ _ _).proba c = _
    rw [(fill_in (fun c => solve c (mth c)) m _ cats _ c hc).1, he]
    cases e <;> simp [probaOf, expEv, divNan]

/-- Example for C66: galaxy and star with a result, the qso stage failed. -/
example : ∃ r, compute "U" ["galaxy", "star", "qso"] (fun _ => .ok "lineModelSolve")
    (fun c _ => if c = "galaxy" then .pdf (.fin (-3)) else if c = "star" then .pdf (.fin (-10)) else .absent) = .ok r ∧
    r.label = "galaxy" ∧ r.proba "qso" = some (some 0) := by
  obtain ⟨r, h1, _, h3, _, _, _, ⟨i, x, hi, hx, hj⟩, _⟩ := C66_classify "U" ["galaxy", "star", "qso"] (fun _ => .ok "lineModelSolve")
    (fun c _ => if c = "galaxy" then .pdf (.fin (-3)) else if c = "star" then .pdf (.fin (-10)) else .absent)
    (fun _ => "lineModelSolve") (by intro c _; rfl) (by intro c _; split <;> [simp; split <;> simp])
    (by intro c _; split <;> [simp; split <;> simp])
    (by
      intro c _ x
      have hd : (100 : ℝ) < Pdfz.dblMax := by
        unfold Pdfz.dblMax
        have : (1 : ℝ) ≤ 2 ^ 971 := one_le_pow₀ (by norm_num)
        have h2 : (101 : ℝ) ≤ 2 ^ 53 - 1 := by norm_num
        have h3 := mul_le_mul h2 this zero_le_one (le_trans (by norm_num) h2)
        exact lt_of_lt_of_le (by norm_num) h3
      split
      · intro h; simp only [Stored.pdf.injEq, Ev.fin.injEq] at h; linarith
      · split
        · intro h; simp only [Stored.pdf.injEq, Ev.fin.injEq] at h; linarith
        · intro h; simp at h)
    ⟨"galaxy", by simp, -3, by simp⟩
  refine ⟨r, h1, ?_, ?_⟩
  · have hg := hj 0 "galaxy" (-3) (by simp) (by simp)
    have : r.label ∈ ["galaxy", "star", "qso"] := List.mem_of_getElem? hi
    simp only [List.mem_cons, List.not_mem_nil, or_false] at this
    rcases this with h | h | h
    · exact h
    · rw [h] at hx
      simp only [String.reduceEq, if_false, if_true, Stored.pdf.injEq, Ev.fin.injEq] at hx
      have := hg.1; linarith
    · rw [h] at hx; simp at hx
  · rw [h3 "qso" (by simp)]
    simp [weight]

end Classify
end Amazed
