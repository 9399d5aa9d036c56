import Verif.Props.SecondPassWindow
import Verif.Props.ExtremumProps
import Mathlib.Analysis.SpecialFunctions.Log.Deriv

set_option linter.unusedVariables false
set_option linter.unusedSectionVars false

/-! # C104: the candidates of the first pass give windows that do not meet

The first pass keeps peaks whose half windows `h (1 + z)` do not overlap (C20 with a separation of twice the half size of the
second pass windows, linemodelsolve.cpp:497-500); the windows of the second pass are `z ± h` or, for the logarithmic sampling,
`(1 + z) exp (± h) - 1`. -/

namespace Amazed
namespace SecondPass
open LmResult Extremum

/-- `(1 - h) e^(2h) ≤ 1 + h`. -/
theorem exp_two_le {h : ℝ} (h0 : 0 ≤ h) (h1 : h < 1) : (1 - h) * Real.exp (2 * h) ≤ 1 + h := by
  have hs := Real.hasSum_log_sub_log_of_abs_lt_one (show |h| < 1 by rw [abs_of_nonneg h0]; exact h1)
  have hle := hs.summable.le_tsum 0 (fun k _ => by positivity)
  rw [hs.tsum_eq] at hle
  simp only [Nat.cast_zero, mul_zero, zero_add, div_one, mul_one, pow_one] at hle
  have h3 : Real.log (1 - h) + 2 * h ≤ Real.log (1 + h) := by linarith
  have h4 := Real.exp_le_exp.2 h3
  rw [Real.exp_add, Real.exp_log (by linarith), Real.exp_log (by linarith)] at h4
  exact h4

/-- Two redshifts whose half windows of the first pass are apart by `2 eps` have second pass windows apart by `2 eps`. -/
theorem log_apart {h eps x y : ℝ} (h0 : 0 ≤ h) (h1 : h < 1) (he : 0 ≤ eps) (hy : -1 < y)
    (hxy : x + h * (1 + x) + 2 * eps < y - h * (1 + y)) :
    ((1 + x) * Real.exp h - 1) + 2 * eps < (1 + y) * Real.exp (-h) - 1 := by
  have e1 : 1 + h ≤ Real.exp h := by have := Real.add_one_le_exp h; linarith
  have e2 := exp_two_le h0 h1
  have e3 : Real.exp (2 * h) = Real.exp h * Real.exp h := by rw [← Real.exp_add]; ring_nf
  have e4 : Real.exp h * Real.exp (-h) = 1 := by rw [← Real.exp_add]; simp
  set a := Real.exp h with ha
  set c := Real.exp (-h) with hc
  have hap : 0 < a := Real.exp_pos _
  have hcp : 0 < c := Real.exp_pos _
  -- (1 - h) a ≤ (1 + h) c
  have e5 : (1 - h) * a ≤ (1 + h) * c := by
    have := mul_le_mul_of_nonneg_right e2 hcp.le
    rw [e3] at this
    calc (1 - h) * a = (1 - h) * (a * a) * c := by
          rw [show (1 - h) * (a * a) * c = (1 - h) * a * (a * c) by ring, e4]; ring
      _ ≤ (1 + h) * c := this
  have p : 0 < 1 + h := by linarith
  have q1 := mul_lt_mul_of_pos_right (show (1 + x) * (1 + h) + 2 * eps < (1 + y) * (1 - h) by linarith) hap
  have q2 := mul_le_mul_of_nonneg_left e5 (show (0 : ℝ) ≤ 1 + y by linarith)
  have q3 : eps * (1 + h) ≤ eps * a := mul_le_mul_of_nonneg_left e1 he
  have : (1 + h) * ((1 + x) * a + 2 * eps) < (1 + h) * ((1 + y) * c) := by nlinarith
  have := lt_of_mul_lt_mul_left this p.le
  linarith

/-- The half windows of the first pass filter are further apart than `d`. -/
def FilterApart (h d x y : ℝ) : Prop := x + h * (1 + x) + d < y - h * (1 + y) ∨ y + h * (1 + y) + d < x - h * (1 + x)

/-- Peaks that do not overlap for the filter of the first pass, with a separation of twice the half size. -/
theorem filterApart_of_not_overlap {h x y : ℝ} (hn : ¬ Overlap (2 * h) x y) : FilterApart h 0 x y := by
  unfold Overlap halfWindow at hn
  simp only [show 2 * h / 2 = h by ring] at hn
  unfold FilterApart
  by_contra hc
  push Not at hc
  exact hn ⟨by linarith [hc.2], by linarith [hc.1]⟩

/-- **C104, no overlap.** Peaks kept by the first pass (half windows that do not overlap, C20) have second pass windows with no common
redshift: always for the logarithmic sampling, and for the linear sampling when the redshifts are not negative. -/
theorem C104_windows_apart {h x y : ℝ} (h0 : 0 ≤ h) (h1 : h < 1) (hx : -1 < x) (hy : -1 < y) (hn : ¬ Overlap (2 * h) x y) :
    ((1 + x) * Real.exp h < (1 + y) * Real.exp (-h) ∨ (1 + y) * Real.exp h < (1 + x) * Real.exp (-h)) ∧
    (0 ≤ x → 0 ≤ y → x + h < y - h ∨ y + h < x - h) := by
  have hf := filterApart_of_not_overlap hn
  refine ⟨?_, fun px py => ?_⟩
  · rcases hf with hf | hf
    · left
      have := log_apart h0 h1 le_rfl hy (by simpa using hf)
      linarith
    · right
      have := log_apart h0 h1 le_rfl hx (by simpa using hf)
      linarith
  · rcases hf with hf | hf
    · left; nlinarith
    · right; nlinarith

/-- **C104, refinement, logarithmic sampling.** For candidates of the grid kept by the first pass (and not closer than the limit of the
filter by less than `2 eps`, `eps` the tolerance of the grid functions), the windows are built, the refinement succeeds, results stay
aligned, and every candidate and every redshift of its window is found. -/
theorem C104_refine_log {V S C : Type} (k : Flt V S C) (half step eps : ℝ) (grid zs : List ℝ) (f b : ℝ) (r : LmRes ℝ V S C)
    (hh : 0 ≤ half) (hh1 : half < 1) (hs : 0 < step) (he : 0 ≤ eps) (hf0 : -1 < f)
    (hes : eps * Real.exp (step / 2) < (1 + f) * (Real.exp (step / 2) - 1))
    (hl : 2 ≤ grid.length) (hg : grid.Pairwise (· < ·)) (hch : grid.IsChain (fun x y => (x + 1) * Real.exp step ≤ y + 1))
    (hf : grid.head? = some f) (hb : grid.getLast? = some b)
    (hr : Aligned grid.length r) (hz : ∀ z ∈ zs, z ∈ grid)
    (hap : zs.Pairwise (FilterApart half (2 * eps))) :
    ∃ wins grid' wins' r', buildWindows (windowLog half step eps grid) [] zs = .ok wins ∧
      refine k eps wins grid r = .ok (grid', wins', r') ∧ r'.redshifts = grid' ∧ Aligned grid'.length r' ∧
      grid'.Pairwise (· < ·) ∧
      List.Forall₂ (fun z w => z ∈ w ∧ z ∈ grid' ∧ ∀ x ∈ w, x ∈ grid' ∧
        (1 + z) * Real.exp (-half) - eps ≤ 1 + x ∧ 1 + x ≤ (1 + z) * Real.exp half + eps) zs wins' := by
  have hg2 : grid.Pairwise (· ≤ ·) := hg.imp le_of_lt
  have hzr : ∀ z ∈ grid, f ≤ z ∧ z ≤ b := by
    intro z hz
    obtain ⟨i, hi, rfl⟩ := List.getElem_of_mem hz
    have hf' := hf
    have hb' := hb
    rw [List.head?_eq_getElem?] at hf'
    rw [List.getLast?_eq_getElem?] at hb'
    obtain ⟨a1, rfl⟩ := List.getElem?_eq_some_iff.1 hf'
    obtain ⟨b1, rfl⟩ := List.getElem?_eq_some_iff.1 hb'
    exact ⟨getElem_le_of_le hg2 (by omega) hi, getElem_le_of_le hg2 (by omega) b1⟩
  set t := Real.exp (step / 2) with ht
  have ht1 : 1 < t := Real.one_lt_exp_iff.2 (by linarith)
  have htt : Real.exp step = t * t := by rw [ht, ← Real.exp_add]; ring_nf
  -- one step of the grid is more than `eps`
  have hgap : ∀ u, f ≤ u → eps < (u + 1) * (Real.exp step - 1) := by
    intro u hu
    rw [htt]
    have h1 : eps * t < (1 + f) * (t - 1) := hes
    have h2 : eps ≤ eps * t := by nlinarith
    have h3 : (1 + f) * (t - 1) ≤ (u + 1) * (t - 1) := mul_le_mul_of_nonneg_right (by linarith) (by linarith)
    have h4 : (u + 1) * (t - 1) ≤ (u + 1) * (t * t - 1) :=
      mul_le_mul_of_nonneg_left (by nlinarith) (by linarith)
    linarith
  obtain ⟨wins, grid', wins', r', a1, a2, a3, a4, a5, a6⟩ := refine_windows k eps (windowLog half step eps grid)
    (fun z => (1 + z) * Real.exp (-half) - 1) (fun z => (1 + z) * Real.exp half - 1) grid zs f b r he hl hg hf hb hr hz
    (by
      intro z hzm
      rcases (hzr _ (hz z hzm)).1.eq_or_lt with h | h
      · exact .inl h.symm
      · obtain ⟨y, h1, h2⟩ := grid_next hg2 hch hf (hz z hzm) h
        have h1' : (f + 1) * Real.exp step ≤ y + 1 := h1
        have := hgap f le_rfl
        right; linarith)
    (by
      intro z hzm
      rcases (hzr _ (hz z hzm)).2.eq_or_lt with h | h
      · exact .inl h
      · obtain ⟨y, h1, h2⟩ := grid_prev hg2 hch hb (hz z hzm) h
        have h1' : (y + 1) * Real.exp step ≤ b + 1 := h1
        have := hgap y (le_trans (hzr _ (hz z hzm)).1 h2)
        right; linarith)
    (by
      intro z hzm
      obtain ⟨g1, g2⟩ := hzr z (hz z hzm)
      obtain ⟨v, h1, h2, h3, h4, h5, h6⟩ := C99_window_log half step eps grid z f b hh hs he (by linarith)
        (lt_of_lt_of_le hes (mul_le_mul_of_nonneg_right (le_max_right _ _) (by linarith))) hg hl hf hb g1 g2
      exact ⟨v, h1, h2, h3, fun x hx => ⟨by have := (h4 x hx).1; linarith, by have := (h4 x hx).2.1; linarith⟩, h5, h6 (hz z hzm) hch⟩)
    (by
      rw [List.pairwise_iff_getElem] at hap ⊢
      intro i j hi hj hij
      have p1 := (hzr _ (hz _ (List.getElem_mem hi))).1
      have p2 := (hzr _ (hz _ (List.getElem_mem hj))).1
      rcases hap i j hi hj hij with h | h
      · exact .inl (log_apart hh hh1 he (by linarith) h)
      · exact .inr (log_apart hh hh1 he (by linarith) h))
  refine ⟨wins, grid', wins', r', a1, a2, a3, a4, a5, a6.imp fun {z w} h => ⟨h.1, h.2.1, fun x hx => ?_⟩⟩
  obtain ⟨c1, c2, c3⟩ := h.2.2 x hx
  exact ⟨c1, by linarith, by linarith⟩

/-- **C104, refinement, linear sampling**, redshifts not negative. -/
theorem C104_refine_linear {V S C : Type} (k : Flt V S C) (half step eps : ℝ) (grid zs : List ℝ) (f b : ℝ) (r : LmRes ℝ V S C)
    (hh : 0 ≤ half) (he : 0 ≤ eps) (hes : 2 * eps < step) (hf0 : 0 ≤ f) (hl : 2 ≤ grid.length)
    (hg : grid.Pairwise (· < ·)) (hch : grid.IsChain (fun x y => x + step ≤ y)) (hf : grid.head? = some f) (hb : grid.getLast? = some b)
    (hr : Aligned grid.length r) (hz : ∀ z ∈ zs, z ∈ grid)
    (hap : zs.Pairwise (FilterApart half (2 * eps))) :
    ∃ wins grid' wins' r', buildWindows (windowLin half step eps grid) [] zs = .ok wins ∧
      refine k eps wins grid r = .ok (grid', wins', r') ∧ r'.redshifts = grid' ∧ Aligned grid'.length r' ∧
      grid'.Pairwise (· < ·) ∧
      List.Forall₂ (fun z w => z ∈ w ∧ z ∈ grid' ∧ ∀ x ∈ w, x ∈ grid' ∧ z - half - eps ≤ x ∧ x ≤ z + half + eps) zs wins' := by
  refine C99_refine k half step eps grid zs f b r hh he hes hl hg hch hf hb hr hz ?_
  have hpos : ∀ z ∈ grid, 0 ≤ z := by
    intro z hz
    obtain ⟨i, hi, rfl⟩ := List.getElem_of_mem hz
    have hf' := hf
    rw [List.head?_eq_getElem?] at hf'
    obtain ⟨a1, rfl⟩ := List.getElem?_eq_some_iff.1 hf'
    exact le_trans hf0 (getElem_le_of_le (hg.imp le_of_lt) (by omega) hi)
  rw [List.pairwise_iff_getElem] at hap ⊢
  intro i j hi hj hij
  have p1 := hpos _ (hz _ (List.getElem_mem hi))
  have p2 := hpos _ (hz _ (List.getElem_mem hj))
  have q1 := mul_nonneg hh p1
  have q2 := mul_nonneg hh p2
  rcases hap i j hi hj hij with h | h
  · rw [abs_sub_comm]
    exact lt_of_lt_of_le (by linarith) (le_abs_self _)
  · exact lt_of_lt_of_le (by linarith) (le_abs_self _)

/-- The result on the grid of the examples. -/
def exNeg : LmRes ℚ ℚ ℚ ℚ :=
  ⟨[-3 / 4, -1 / 4, 1 / 4], [1, 2, 3], [0, 0, 0], [0, 0, 0], [0, 0, 0], [0, 0, 0], [0, 0, 0], [], [], [], [], [], [], [], []⟩

/-- C104 is false for the linear sampling and negative redshifts: the candidates -3/4 and -1/4 are kept by the filter of the first pass
(half size 2/5), but their windows overlap, and the redshift -13/28 of the first one is not found in the refined grid. -/
theorem C104_negative_counterexample :
    ¬ Overlap (2 * (2 / 5) : ℚ) (-3 / 4) (-1 / 4) ∧
    ∃ wins : List (List ℚ), buildWindows (windowLin (2 / 5 : ℚ) (1 / 7) (1 / 1000) exNeg.redshifts) [] [-3 / 4, -1 / 4] = .ok wins ∧
      wins[0]? = some [(-3 / 4 : ℚ), -17 / 28, -13 / 28] ∧
      (refine (⟨0, 0, 0, 0, 0⟩ : Flt ℚ ℚ ℚ) (1 / 1000) wins exNeg.redshifts exNeg >>= fun y =>
          (.ok (y.1, y.2.1, y.2.2.redshifts) : Res (List ℚ × List (List ℚ) × List ℚ))) =
        .ok ([-3 / 4, -17 / 28, -15 / 28, -11 / 28, -1 / 4, -3 / 28, 1 / 28, 1 / 4], wins,
          [-3 / 4, -17 / 28, -15 / 28, -11 / 28, -1 / 4, -3 / 28, 1 / 28, 1 / 4]) ∧
      getIndex [-3 / 4, -17 / 28, -15 / 28, -11 / 28, -1 / 4, -3 / 28, 1 / 28, (1 : ℚ) / 4] (-13 / 28) = .throw .INTERNAL_ERROR := by
  refine ⟨?_, [[-3 / 4, -17 / 28, -13 / 28], [-15 / 28, -11 / 28, -1 / 4, -3 / 28, 1 / 28]], ?_, rfl, ?_, ?_⟩
  · unfold Overlap halfWindow
    norm_num
  all_goals decide +kernel

/-- Redshifts 0 and 1 with a half size of 1/10 are kept by the filter. -/
example : ¬ Overlap (2 * (1 / 10) : ℝ) 0 1 := by unfold Overlap halfWindow; norm_num

example := C104_windows_apart (h := 1 / 10) (x := 0) (y := 1) (by norm_num) (by norm_num) (by norm_num) (by norm_num)
  (by unfold Overlap halfWindow; norm_num)

example := C104_refine_log (⟨0, 0, 0, 0, 0⟩ : Flt ℚ ℚ ℚ) (1 / 10) (1 / 100) 0 [0, 1, 2] [0, 1] 0 2
  ⟨[0, 1, 2], [1, 2, 3], [0, 0, 0], [0, 0, 0], [0, 0, 0], [0, 0, 0], [0, 0, 0], [], [], [], [], [], [], [], []⟩
  (by norm_num) (by norm_num) (by norm_num) (by norm_num) (by norm_num)
  (by have := Real.one_lt_exp_iff.2 (show (0 : ℝ) < 1 / 100 / 2 by norm_num); linarith)
  (by simp) (by simp)
  (by
    have h : Real.exp (1 / 100) ≤ 1 / (1 - 1 / 100) := by
      have := Real.one_sub_le_exp_neg (1 / 100)
      rw [Real.exp_neg] at this
      rw [le_div_iff₀ (by norm_num)]
      have hp := Real.exp_pos (1 / 100)
      have := mul_le_mul_of_nonneg_left this hp.le
      rwa [mul_inv_cancel₀ hp.ne'] at this
    norm_num at h
    simp only [List.isChain_cons_cons, List.isChain_singleton, and_true]
    exact ⟨by norm_num; linarith, by norm_num; linarith⟩)
  rfl rfl (by constructor <;> simp) (by simp) (by simp [FilterApart]; norm_num)

example := C104_refine_linear (⟨0, 0, 0, 0, 0⟩ : Flt ℚ ℚ ℚ) (1 / 10) (1 / 100) 0 [0, 1, 2] [0, 1] 0 2
  ⟨[0, 1, 2], [1, 2, 3], [0, 0, 0], [0, 0, 0], [0, 0, 0], [0, 0, 0], [0, 0, 0], [], [], [], [], [], [], [], []⟩
  (by norm_num) (by norm_num) (by norm_num) (by norm_num) (by simp) (by simp)
  (by simp only [List.isChain_cons_cons, List.isChain_singleton, and_true]; norm_num)
  rfl rfl (by constructor <;> simp) (by simp) (by simp [FilterApart]; norm_num)

end SecondPass
end Amazed
