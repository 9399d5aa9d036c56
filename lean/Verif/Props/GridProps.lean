import Verif.Model.Grid
import Verif.Props.RangeProps

/-! # C05-C07: linear, logarithmic and centred grids -/

namespace Amazed

/-! ## Specification -/

/-- `v` is the linear grid of step `d` that starts at `b`, stays below `e` and cannot be extended:
every point is in `[b, e]`, and one more step would pass `e`. -/
def IsForwardGrid {K : Type*} [Field K] [LinearOrder K] (v : List K) (b e d : K) : Prop :=
  v ≠ [] ∧ (∀ i (h : i < v.length), v[i] = b + i * d) ∧ (∀ x ∈ v, b ≤ x ∧ x ≤ e) ∧
    e < b + v.length * d

/-- Mirror image of `IsForwardGrid`: ends at `e`, steps down to `b`. -/
def IsBackwardGrid {K : Type*} [Field K] [LinearOrder K] (v : List K) (b e d : K) : Prop :=
  v ≠ [] ∧ (∀ i (h : i < v.length), v[v.length - 1 - i] = e - i * d) ∧
    (∀ x ∈ v, b ≤ x ∧ x ≤ e) ∧ e - v.length * d < b

section Linear
variable {K : Type*} [Field K] [LinearOrder K] [IsStrictOrderedRing K] [FloorRing K]

theorem exists_steps {L d : K} (hd : 0 < d) (hL : 0 ≤ L) :
    ∃ n : ℕ, 1 ≤ n ∧ truncZ (L / d + 1) = (n : ℤ) ∧ ((n : K) - 1) * d ≤ L ∧ L < n * d := by
  have hq : 0 ≤ L / d := div_nonneg hL hd.le
  have h0 : (0 : K) ≤ L / d + 1 := by linarith
  have hfl : 1 ≤ ⌊L / d + 1⌋ := by
    rw [Int.le_floor]; push_cast; linarith
  obtain ⟨n, hn⟩ := Int.eq_ofNat_of_zero_le (by omega : 0 ≤ ⌊L / d + 1⌋)
  have h1 := Int.floor_le (L / d + 1)
  have h2 := Int.lt_floor_add_one (L / d + 1)
  have hLd : L = L / d * d := by field_simp
  rw [hn] at h1 h2
  push_cast at h1 h2
  refine ⟨n, by omega, by unfold truncZ; rw [if_pos h0, hn], ?_, ?_⟩
  · calc ((n : K) - 1) * d ≤ (L / d) * d := by
          apply mul_le_mul_of_nonneg_right _ hd.le; linarith
      _ = L := hLd.symm
  · calc L = (L / d) * d := hLd
      _ < n * d := by apply mul_lt_mul_of_pos_right _ hd; linarith

theorem Range.spreadOver_spec (r : Range K) (d : K) (hd : 0 < d) (hr : r.b ≤ r.e) :
    ∃ n : ℕ, 1 ≤ n ∧ ((n : K) - 1) * d ≤ r.e - r.b ∧ r.e - r.b < n * d ∧
      r.spreadOver d false = .ok ((List.range n).map (fun i : ℕ => r.b + d * (i : K))) ∧
      r.spreadOver d true =
        .ok ((List.range n).map (fun i : ℕ => r.e - d * ((n - 1 - i : ℕ) : K))) := by
  by_cases hc : r.isEmpty ∨ d = 0 ∨ r.length < d
  · refine ⟨1, le_rfl, by simpa using hr, ?_, ?_, ?_⟩
    · rcases hc with h | h | h
      · simp [Range.isEmpty] at h; simp [h, hd]
      · exact absurd h (ne_of_gt hd)
      · simpa [Range.length] using h
    · simp [Range.spreadOver, hc]
    · simp [Range.spreadOver, Range.spreadOverBackward, hc]
  · obtain ⟨n, hn, h1, h2, h3⟩ := exists_steps hd (L := r.e - r.b) (by linarith)
    have hnl : ¬ ((n : ℤ) < 0) := by omega
    refine ⟨n, hn, h2, h3, ?_, ?_⟩
    · simp only [Range.spreadOver, if_neg hc]
      simp only [Range.length, h1, mkVec]
      simp
    · simp only [Range.spreadOver, Range.spreadOverBackward, if_neg hc]
      simp only [Range.length, h1, mkVec]
      simp only [↓reduceIte, hnl, Int.toNat_natCast, Res.ok.injEq, List.map_inj_left, List.mem_range]
      intro i hi
      congr 2
      have : ((n : ℤ) - 1 - (i : ℤ)) = ((n - 1 - i : ℕ) : ℤ) := by omega
      rw [this]; simp

/-- C05. `SpreadOver(delta)` with a positive step on a valid range returns the forward grid. -/
theorem C05_spread_forward (r : Range K) (d : K) (hd : 0 < d) (hr : r.b ≤ r.e) :
    ∃ v, r.spreadOver d false = .ok v ∧ IsForwardGrid v r.b r.e d := by
  obtain ⟨n, hn, h1, h2, h3, _⟩ := r.spreadOver_spec d hd hr
  refine ⟨_, h3, ?_, ?_, ?_, ?_⟩
  · intro h; simp at h; omega
  · intro i h; simp; ring
  · intro x hx
    simp only [List.mem_map, List.mem_range] at hx
    obtain ⟨i, hi, rfl⟩ := hx
    have hi' : (i : K) ≤ n - 1 := by
      have : ((i + 1 : ℕ) : K) ≤ n := by exact_mod_cast hi
      push_cast at this; linarith
    have h0 : (0 : K) ≤ i := by positivity
    constructor
    · have := mul_nonneg hd.le h0; linarith
    · have := mul_le_mul_of_nonneg_right hi' hd.le; linarith
  · simp; linarith

/-- C05. `SpreadOver(delta, true)` returns the backward grid. -/
theorem C05_spread_backward (r : Range K) (d : K) (hd : 0 < d) (hr : r.b ≤ r.e) :
    ∃ v, r.spreadOver d true = .ok v ∧ IsBackwardGrid v r.b r.e d := by
  obtain ⟨n, hn, h1, h2, _, h3⟩ := r.spreadOver_spec d hd hr
  refine ⟨_, h3, ?_, ?_, ?_, ?_⟩
  · intro h; simp at h; omega
  · intro i h
    simp only [List.length_map, List.length_range] at h
    simp only [List.length_map, List.length_range, List.getElem_map, List.getElem_range]
    have : n - 1 - (n - 1 - i) = i := by omega
    rw [this]; ring
  · intro x hx
    simp only [List.mem_map, List.mem_range] at hx
    obtain ⟨i, hi, rfl⟩ := hx
    have hi' : ((n - 1 - i : ℕ) : K) ≤ n - 1 := by
      have : ((n - 1 - i + 1 : ℕ) : K) ≤ n := by exact_mod_cast (by omega)
      push_cast at this; linarith
    have h0 : (0 : K) ≤ ((n - 1 - i : ℕ) : K) := by positivity
    constructor
    · have := mul_le_mul_of_nonneg_right hi' hd.le; linarith
    · have := mul_nonneg hd.le h0; linarith
  · simp; linarith

/-- A forward or backward grid is strictly increasing. -/
theorem IsForwardGrid.strict {v : List K} {b e d : K} (h : IsForwardGrid v b e d) (hd : 0 < d) :
    v.Pairwise (· < ·) := by
  rw [List.pairwise_iff_getElem]
  intro i j hi hj hij
  rw [h.2.1 i hi, h.2.1 j hj]
  have : (i : K) < j := by exact_mod_cast hij
  have := mul_lt_mul_of_pos_right this hd
  linarith

theorem IsBackwardGrid.strict {v : List K} {b e d : K} (h : IsBackwardGrid v b e d) (hd : 0 < d) :
    v.Pairwise (· < ·) := by
  rw [List.pairwise_iff_getElem]
  intro i j hi hj hij
  have hi2 := h.2.1 (v.length - 1 - i) (by omega)
  have hj2 := h.2.1 (v.length - 1 - j) (by omega)
  simp only [show v.length - 1 - (v.length - 1 - i) = i by omega] at hi2
  simp only [show v.length - 1 - (v.length - 1 - j) = j by omega] at hj2
  rw [hi2, hj2]
  have : ((v.length - 1 - j : ℕ) : K) < ((v.length - 1 - i : ℕ) : K) := by
    exact_mod_cast (by omega)
  have := mul_lt_mul_of_pos_right this hd
  linarith

omit [Field K] [IsStrictOrderedRing K] [FloorRing K] in
/-- Description of the vector after `clipEnds`. -/
theorem Range.clipEnds_spec (r : Range K) (v : List K) (hv : v.length ≠ 0) :
    ∃ w, r.clipEnds v = .ok w ∧ w.length = v.length ∧
      ∀ i (h : i < w.length) (h' : i < v.length), w[i] =
        (let x := if i = 0 then max v[i] r.b else v[i]
         if i = v.length - 1 then min x r.e else x) := by
  refine ⟨_, if_neg hv, by simp, ?_⟩
  intro i h h'
  simp only [List.getElem_modify, eq_comm (a := i)]

/-- C05. `SpreadOverEpsilon` with a positive step larger than `epsilon`, on a valid range: never
leaves the original range, is strictly increasing, keeps one border exactly, all points but the
clipped one are regular, and the other border is less than a step away. -/
theorem C05_spread_eps_forward (r : Range K) (d eps : K) (hd : 0 < d) (he : 0 ≤ eps) (hed : eps < d)
    (hr : r.b ≤ r.e) :
    ∃ v, r.spreadOverEps d false eps = .ok v ∧ v.Pairwise (· < ·) ∧ (∀ x ∈ v, r.Mem x) ∧
      v.head? = some r.b ∧ (∀ i (h : i < v.length), v[i] = min (r.b + i * d) r.e) ∧
      r.e + eps < r.b + v.length * d := by
  obtain ⟨n, hn, h1, h2, h3, _⟩ := (r.widen false eps).spreadOver_spec d hd
    (by simp [Range.widen]; linarith)
  obtain ⟨w, hw, hl, hget⟩ := r.clipEnds_spec
    ((List.range n).map (fun i : ℕ => (r.widen false eps).b + d * (i : K))) (by simp; omega)
  simp only [Range.widen, Bool.false_eq_true, if_false, add_zero, List.length_map,
    List.length_range, List.getElem_map, List.getElem_range] at h1 h2 h3 hl hget hw
  have hval : ∀ i (h : i < w.length), w[i] = min (r.b + i * d) r.e := by
    intro i h
    rw [hget i h (by omega)]
    by_cases hlast : i = n - 1
    · subst hlast
      by_cases h0 : n - 1 = 0
      · simp [h0]
      · simp [h0, mul_comm]
    · have hi' : (i : K) + 1 ≤ n - 1 := by
        have : ((i + 1 + 1 : ℕ) : K) ≤ n := by exact_mod_cast (by omega)
        push_cast at this; linarith
      have hle : r.b + i * d ≤ r.e := by
        have := mul_le_mul_of_nonneg_right hi' hd.le
        linarith
      rw [if_neg hlast, min_eq_left hle]
      split
      · rename_i h0; subst h0; simp
      · ring
  refine ⟨w, ?_, ?_, ?_, ?_, hval, ?_⟩
  · simp [Range.spreadOverEps, Range.widen, h3, hw]
  · rw [List.pairwise_iff_getElem]
    intro i j hi hj hij
    rw [hval i hi, hval j hj]
    have hjn : ((j : ℕ) : K) + 1 ≤ n := by exact_mod_cast (by omega : j + 1 ≤ n)
    have hij' : (i : K) + 1 ≤ j := by exact_mod_cast hij
    have hlt := mul_lt_mul_of_pos_right (by linarith : (i : K) < j) hd
    apply lt_of_le_of_lt (min_le_left _ _)
    apply lt_min
    · linarith
    · have h5 := mul_le_mul_of_nonneg_right (by linarith : (i : K) + 1 ≤ n - 1) hd.le
      linarith
  · intro x hx
    obtain ⟨i, hi, rfl⟩ := List.getElem_of_mem hx
    rw [hval i hi]
    have h0 : (0 : K) ≤ i * d := by positivity
    exact ⟨le_min (by linarith) hr, min_le_right _ _⟩
  · have h0 : 0 < w.length := by omega
    rw [List.head?_eq_getElem?, List.getElem?_eq_getElem h0, hval 0 h0]
    simp [hr]
  · rw [hl]; linarith

/-- C05, backward variant. -/
theorem C05_spread_eps_backward (r : Range K) (d eps : K) (hd : 0 < d) (he : 0 ≤ eps)
    (hed : eps < d) (hr : r.b ≤ r.e) :
    ∃ v, r.spreadOverEps d true eps = .ok v ∧ v.Pairwise (· < ·) ∧ (∀ x ∈ v, r.Mem x) ∧
      v.getLast? = some r.e ∧
      (∀ i (h : i < v.length), v[v.length - 1 - i] = max (r.e - i * d) r.b) ∧
      r.e - v.length * d < r.b - eps := by
  obtain ⟨n, hn, h1, h2, _, h3⟩ := (r.widen true eps).spreadOver_spec d hd
    (by simp [Range.widen]; linarith)
  obtain ⟨w, hw, hl, hget⟩ := r.clipEnds_spec
    ((List.range n).map (fun i : ℕ => (r.widen true eps).e - d * ((n - 1 - i : ℕ) : K))) (by simp; omega)
  simp only [Range.widen, if_true, add_zero, List.length_map,
    List.length_range, List.getElem_map, List.getElem_range] at h1 h2 h3 hl hget hw
  have hval' : ∀ i (h : i < w.length), w[i] = max (r.e - ((n - 1 - i : ℕ) : K) * d) r.b := by
    intro i h
    rw [hget i h (by omega)]
    by_cases hfirst : i = 0
    · subst hfirst
      by_cases h0 : 0 = n - 1
      · simp [← h0, hr]
      · simp [h0, mul_comm]
    · have hi' : ((n - 1 - i : ℕ) : K) + 1 ≤ n - 1 := by
        have : ((n - 1 - i + 1 + 1 : ℕ) : K) ≤ n := by exact_mod_cast (by omega)
        push_cast at this; linarith
      have hle : r.b ≤ r.e - ((n - 1 - i : ℕ) : K) * d := by
        have := mul_le_mul_of_nonneg_right hi' hd.le
        linarith
      rw [max_eq_left hle]
      by_cases hlast : i = n - 1
      · subst hlast; simp [hfirst]
      · simp [hfirst, hlast, mul_comm]
  have hval : ∀ i (h : i < w.length), w[w.length - 1 - i] = max (r.e - i * d) r.b := by
    intro i h
    rw [hval' _ (by omega)]
    have : n - 1 - (w.length - 1 - i) = i := by omega
    rw [this]
  refine ⟨w, ?_, ?_, ?_, ?_, hval, ?_⟩
  · simp [Range.spreadOverEps, Range.widen, h3, hw]
  · rw [List.pairwise_iff_getElem]
    intro i j hi hj hij
    rw [hval' i hi, hval' j hj]
    have hjn : ((n - 1 - j : ℕ) : K) + 1 ≤ n - 1 := by
      have : ((n - 1 - j + 1 + 1 : ℕ) : K) ≤ n := by exact_mod_cast (by omega)
      push_cast at this; linarith
    have hij' : ((n - 1 - j : ℕ) : K) + 1 ≤ ((n - 1 - i : ℕ) : K) := by
      exact_mod_cast (by omega)
    have hlt := mul_lt_mul_of_pos_right (by linarith : ((n - 1 - j : ℕ) : K) < ((n - 1 - i : ℕ) : K)) hd
    apply lt_of_lt_of_le _ (le_max_left _ _)
    apply max_lt
    · linarith
    · have h5 := mul_le_mul_of_nonneg_right hjn hd.le
      linarith
  · intro x hx
    obtain ⟨i, hi, rfl⟩ := List.getElem_of_mem hx
    rw [hval' i hi]
    have h0 : (0 : K) ≤ ((n - 1 - i : ℕ) : K) * d := by positivity
    exact ⟨le_max_right _ _, max_le (by linarith) hr⟩
  · have h0 : 0 < w.length := by omega
    have := hval 0 h0
    rw [List.getLast?_eq_getElem?, List.getElem?_eq_getElem (by omega)]
    simp only [Nat.sub_zero] at this
    rw [this]; simp [hr]
  · rw [hl]; linarith

end Linear

/-- C05 needs the step to exceed `epsilon`: otherwise points beyond the end are produced (only the
last one is clipped). -/
theorem C05_spread_eps_small_step_leaves_range :
    ∃ (r : Range ℚ) (d eps : ℚ) (v : List ℚ), 0 < d ∧ 0 < eps ∧ r.Valid ∧
      r.spreadOverEps d false eps = .ok v ∧ ∃ x ∈ v, ¬ r.Mem x :=
  ⟨⟨0, 1⟩, 1/2, 1, [0, 1/2, 1, 3/2, 1], by norm_num, by norm_num, by decide +kernel,
    by decide +kernel, 3/2, by decide +kernel, by decide +kernel⟩

example : (⟨0, 1⟩ : Range ℚ).spreadOver (3/10) false = .ok [0, 3/10, 6/10, 9/10] ∧
    (⟨0, 1⟩ : Range ℚ).spreadOver (3/10) true = .ok [1/10, 4/10, 7/10, 1] ∧
    (⟨0, 1⟩ : Range ℚ).spreadOverEps (1/4) false (1/1000) = .ok [0, 1/4, 1/2, 3/4, 1] := by
  decide +kernel

/-! ## C06 -/

/-- `v` is the geometric grid in `x + o` of ratio `exp d` starting at `b`, inside `[b,e]` and
maximal. -/
def IsForwardLogGrid (v : List ℝ) (b e d o : ℝ) : Prop :=
  v ≠ [] ∧ (∀ i (h : i < v.length), v[i] + o = (b + o) * Real.exp (i * d)) ∧
    (∀ x ∈ v, b ≤ x ∧ x ≤ e) ∧ e + o < (b + o) * Real.exp (v.length * d)

/-- Mirror image, ending at `e`. -/
def IsBackwardLogGrid (v : List ℝ) (b e d o : ℝ) : Prop :=
  v ≠ [] ∧ (∀ i (h : i < v.length), v[v.length - 1 - i] + o = (e + o) * Real.exp (-(i * d))) ∧
    (∀ x ∈ v, b ≤ x ∧ x ≤ e) ∧ (e + o) * Real.exp (-(v.length * d)) < b + o

theorem Range.spreadOverLog_spec (r : Range ℝ) (d o : ℝ) (hd : 0 < d) (hr : r.b ≤ r.e)
    (hb : 0 < r.b + o) :
    ∃ n : ℕ, 1 ≤ n ∧ ((n : ℝ) - 1) * d ≤ Real.log (r.e + o) - Real.log (r.b + o) ∧
      Real.log (r.e + o) - Real.log (r.b + o) < n * d ∧
      r.spreadOverLog d o false =
        .ok ((List.range n).map (fun i => (r.b + o) * Real.exp d ^ i - o)) ∧
      r.spreadOverLog d o true =
        .ok ((List.range n).map (fun i => (r.e + o) * Real.exp (-d) ^ (n - 1 - i) - o)) := by
  have hepos : 0 < r.e + o := by linarith
  have hsign : r.isSameSign o := by
    unfold Range.isSameSign; positivity
  have hlog : Real.log (r.b + o) ≤ Real.log (r.e + o) := Real.log_le_log hb (by linarith)
  by_cases hc : r.isEmpty ∨ d = 0 ∨ r.length < (r.b + o) * Real.exp d - (r.b + o)
  · refine ⟨1, le_rfl, by simpa using hlog, ?_, ?_, ?_⟩
    · rcases hc with h | h | h
      · simp [Range.isEmpty] at h; simp [h, hd]
      · exact absurd h (ne_of_gt hd)
      · have h' : r.e + o < (r.b + o) * Real.exp d := by unfold Range.length at h; linarith
        have := Real.log_lt_log hepos h'
        rw [Real.log_mul (ne_of_gt hb) (Real.exp_ne_zero _), Real.log_exp] at this
        simp; linarith
    · simp [Range.spreadOverLog, hc, hsign]
    · simp [Range.spreadOverLog, Range.spreadOverLogBackward, hc, hsign]
  · obtain ⟨n, hn, h1, h2, h3⟩ := exists_steps hd (L := Real.log (r.e + o) - Real.log (r.b + o))
      (by linarith)
    have hnl : ¬ ((n : ℤ) < 0) := by omega
    have hcount : r.logCount d o = .ok (n : ℤ) := by
      unfold Range.logCount
      rw [if_neg (by push Not; exact ⟨hb, hepos⟩), h1]
    refine ⟨n, hn, h2, h3, ?_, ?_⟩
    · simp [Range.spreadOverLog, hc, hsign, hcount, mkVec]
    · simp [Range.spreadOverLog, Range.spreadOverLogBackward, hc, hsign, hcount, mkVec]

/-- C06. Forward logarithmic grid. -/
theorem C06_log_forward (r : Range ℝ) (d o : ℝ) (hd : 0 < d) (hr : r.b ≤ r.e)
    (hb : 0 < r.b + o) :
    ∃ v, r.spreadOverLog d o false = .ok v ∧ IsForwardLogGrid v r.b r.e d o := by
  obtain ⟨n, hn, h1, h2, h3, _⟩ := r.spreadOverLog_spec d o hd hr hb
  have hepos : 0 < r.e + o := by linarith
  refine ⟨_, h3, ?_, ?_, ?_, ?_⟩
  · intro h; simp at h; omega
  · intro i h; simp [Real.exp_nat_mul]
  · intro x hx
    simp only [List.mem_map, List.mem_range] at hx
    obtain ⟨i, hi, rfl⟩ := hx
    rw [← Real.exp_nat_mul]
    have hi' : (i : ℝ) ≤ n - 1 := by
      have : ((i + 1 : ℕ) : ℝ) ≤ n := by exact_mod_cast hi
      push_cast at this; linarith
    constructor
    · have : 1 ≤ Real.exp (i * d) := Real.one_le_exp (by positivity)
      nlinarith
    · have h4 : (i : ℝ) * d ≤ Real.log (r.e + o) - Real.log (r.b + o) :=
        le_trans (mul_le_mul_of_nonneg_right hi' hd.le) h1
      have h5 := Real.exp_le_exp.2 h4
      rw [Real.exp_sub, Real.exp_log hepos, Real.exp_log hb, le_div_iff₀ hb] at h5
      linarith
  · have h5 := Real.exp_lt_exp.2 h2
    rw [Real.exp_sub, Real.exp_log hepos, Real.exp_log hb, div_lt_iff₀ hb] at h5
    simp; linarith

/-- C06. Backward logarithmic grid. -/
theorem C06_log_backward (r : Range ℝ) (d o : ℝ) (hd : 0 < d) (hr : r.b ≤ r.e)
    (hb : 0 < r.b + o) :
    ∃ v, r.spreadOverLog d o true = .ok v ∧ IsBackwardLogGrid v r.b r.e d o := by
  obtain ⟨n, hn, h1, h2, _, h3⟩ := r.spreadOverLog_spec d o hd hr hb
  have hepos : 0 < r.e + o := by linarith
  have hpow : ∀ k : ℕ, Real.exp (-d) ^ k = Real.exp (-(k * d)) := by
    intro k; rw [← Real.exp_nat_mul]; congr 1; ring
  refine ⟨_, h3, ?_, ?_, ?_, ?_⟩
  · intro h; simp at h; omega
  · intro i h
    simp only [List.length_map, List.length_range] at h
    simp only [List.length_map, List.length_range, List.getElem_map, List.getElem_range]
    have : n - 1 - (n - 1 - i) = i := by omega
    rw [this, hpow]; ring
  · intro x hx
    simp only [List.mem_map, List.mem_range] at hx
    obtain ⟨i, hi, rfl⟩ := hx
    rw [hpow]
    have hi' : ((n - 1 - i : ℕ) : ℝ) ≤ n - 1 := by
      have : ((n - 1 - i + 1 : ℕ) : ℝ) ≤ n := by exact_mod_cast (by omega)
      push_cast at this; linarith
    constructor
    · have h4 : ((n - 1 - i : ℕ) : ℝ) * d ≤ Real.log (r.e + o) - Real.log (r.b + o) :=
        le_trans (mul_le_mul_of_nonneg_right hi' hd.le) h1
      have h5 := Real.exp_le_exp.2 h4
      rw [Real.exp_sub, Real.exp_log hepos, Real.exp_log hb, le_div_iff₀ hb] at h5
      have h6 : Real.exp (((n - 1 - i : ℕ) : ℝ) * d) * Real.exp (-(((n - 1 - i : ℕ) : ℝ) * d)) = 1 := by
        rw [← Real.exp_add]; simp
      have h7 := Real.exp_pos (-(((n - 1 - i : ℕ) : ℝ) * d))
      have h8 := mul_le_mul_of_nonneg_right h5 h7.le
      have h9 : Real.exp (((n - 1 - i : ℕ) : ℝ) * d) * (r.b + o) * Real.exp (-(((n - 1 - i : ℕ) : ℝ) * d)) = r.b + o := by
        rw [mul_right_comm, h6, one_mul]
      linarith
    · have : Real.exp (-(((n - 1 - i : ℕ) : ℝ) * d)) ≤ 1 := by
        rw [Real.exp_le_one_iff]; have : 0 ≤ ((n - 1 - i : ℕ) : ℝ) * d := by positivity
        linarith
      nlinarith
  · have h5 := Real.exp_lt_exp.2 h2
    rw [Real.exp_sub, Real.exp_log hepos, Real.exp_log hb, div_lt_iff₀ hb] at h5
    have h7 := Real.exp_pos (-((n : ℝ) * d))
    have h6 : Real.exp ((n : ℝ) * d) * Real.exp (-((n : ℝ) * d)) = 1 := by
      rw [← Real.exp_add]; simp
    have h8 := mul_lt_mul_of_pos_right h5 h7
    have h9 : Real.exp ((n : ℝ) * d) * (r.b + o) * Real.exp (-((n : ℝ) * d)) = r.b + o := by
      rw [mul_right_comm, h6, one_mul]
    simp only [List.length_map, List.length_range]; linarith

/-- C06: bounds of opposite sign are rejected in both directions. -/
theorem C06_log_opposite_signs (r : Range ℝ) (d o : ℝ) (back : Bool)
    (h : (r.b + o) * (r.e + o) < 0) : r.spreadOverLog d o back = .throw .INTERNAL_ERROR := by
  have : ¬ r.isSameSign o := by unfold Range.isSameSign; linarith
  simp [Range.spreadOverLog, this]

/-- C06 is not memory safe for negative bounds of the same sign: the conversion of a NaN point count
is undefined. -/
theorem C06_log_negative_bounds_ub : (⟨-2, -1⟩ : Range ℝ).spreadOverLog 1 0 false = .ub := by
  have h1 : (⟨-2, -1⟩ : Range ℝ).isSameSign 0 := by unfold Range.isSameSign; norm_num
  have h2 : ¬ ((⟨-2, -1⟩ : Range ℝ).isEmpty ∨ (1 : ℝ) = 0 ∨
      (⟨-2, -1⟩ : Range ℝ).length < (-2 + 0) * Real.exp 1 - (-2 + 0)) := by
    have := Real.add_one_lt_exp (x := 1) (by norm_num)
    simp [Range.isEmpty, Range.length]
    linarith
  have h3 : (⟨-2, -1⟩ : Range ℝ).logCount 1 0 = .ub := by
    unfold Range.logCount; rw [if_pos]; norm_num
  unfold Range.spreadOverLog
  rw [if_neg (by simpa using h1)]
  simp only [Bool.false_eq_true, if_false, h3]
  rw [if_neg h2]; rfl

example : (0 : ℝ) < Real.log 2 ∧ (⟨0, 3⟩ : Range ℝ).b ≤ (⟨0, 3⟩ : Range ℝ).e ∧
    0 < (⟨0, 3⟩ : Range ℝ).b + 1 ∧ IsForwardLogGrid [0, 1, 3] 0 3 (Real.log 2) 1 := by
  have h : ∀ n : ℕ, Real.exp (n * Real.log 2) = 2 ^ n := by
    intro n; rw [Real.exp_nat_mul, Real.exp_log (by norm_num)]
  refine ⟨Real.log_pos (by norm_num), by norm_num, by norm_num, by simp, ?_, ?_, ?_⟩
  · intro i hi
    rw [h]
    simp only [List.length_cons, List.length_nil] at hi
    have : i = 0 ∨ i = 1 ∨ i = 2 := by omega
    rcases this with rfl | rfl | rfl <;> norm_num
  · intro x hx; simp at hx; rcases hx with rfl | rfl | rfl <;> norm_num
  · rw [h]; norm_num

/-! ## C07 -/

/-- C07, linear sampling: for a centre inside the range and a step larger than `epsilon`, the
centred window is strictly increasing (so it holds the centre exactly once), inside the range, contains
the centre, and covers the range up to one step at both sides. -/
theorem C07_span_linear {K : Type*} [Field K] [LinearOrder K] [IsStrictOrderedRing K] [FloorRing K]
    (r : Range K) (c d eps : K) (hd : 0 < d) (he : 0 ≤ eps) (hed : eps < d) (hc : r.Mem c) :
    ∃ v, r.spanCenteredLin c d eps = .ok v ∧ v.Pairwise (· < ·) ∧ (∀ x ∈ v, r.Mem x) ∧ c ∈ v ∧
      (∃ x ∈ v, x - r.b < d) ∧ (∃ x ∈ v, r.e - x < d) := by
  obtain ⟨lft, hl, hl1, hl2, hl3, hl4, hl5⟩ :=
    C05_spread_eps_backward (⟨r.b, c⟩ : Range K) d eps hd he hed hc.1
  obtain ⟨rgt, hr, hr1, hr2, hr3, hr4, hr5⟩ :=
    C05_spread_eps_forward (⟨c, r.e⟩ : Range K) d eps hd he hed hc.2
  match rgt, hr3 with
  | x :: t, hr3 =>
    simp only [List.head?_cons, Option.some.injEq] at hr3
    subst hr3
    have hcl : x ∈ lft := List.mem_of_getLast? hl3
    have hlpos : 0 < lft.length := List.length_pos_of_mem hcl
    refine ⟨lft ++ t, by simp [Range.spanCenteredLin, hl, hr, Range.appendTail], ?_, ?_,
      List.mem_append_left _ hcl, ?_, ?_⟩
    · rw [List.pairwise_append]
      refine ⟨hl1, (List.pairwise_cons.1 hr1).2, fun a ha b hb => ?_⟩
      exact lt_of_le_of_lt (hl2 a ha).2 ((List.pairwise_cons.1 hr1).1 b hb)
    · intro a ha
      rcases List.mem_append.1 ha with h | h
      · exact ⟨(hl2 a h).1, le_trans (hl2 a h).2 hc.2⟩
      · have := hr2 a (by simp [h])
        exact ⟨le_trans hc.1 this.1, this.2⟩
    · refine ⟨lft[lft.length - 1 - (lft.length - 1)]'(by omega),
        List.mem_append_left _ (List.getElem_mem _), ?_⟩
      rw [hl4 (lft.length - 1) (by omega)]
      have : ((lft.length - 1 : ℕ) : K) = (lft.length : K) - 1 := by
        rw [Nat.cast_sub (by omega)]; simp
      rw [this]
      simp only at hl5 ⊢
      rcases max_cases (x - ((lft.length : K) - 1) * d) r.b with ⟨h, _⟩ | ⟨h, _⟩ <;> rw [h] <;> linarith
    · have hmem : (x :: t)[(x :: t).length - 1]'(by simp) ∈ lft ++ t := by
        by_cases ht : t = []
        · subst ht; simpa using hcl
        · apply List.mem_append_right
          rw [← List.getLast_eq_getElem (by simp), List.getLast_cons ht]
          exact List.getLast_mem ht
      refine ⟨_, hmem, ?_⟩
      rw [hr4 ((x :: t).length - 1) (by simp)]
      have : (((x :: t).length - 1 : ℕ) : K) = ((x :: t).length : K) - 1 := by
        rw [Nat.cast_sub (by simp)]; simp
      rw [this]
      simp only at hr5 ⊢
      rcases min_cases (x + (((x :: t).length : K) - 1) * d) r.e with ⟨h, _⟩ | ⟨h, _⟩ <;> rw [h] <;>
        linarith

example : (⟨0, 1⟩ : Range ℚ).spanCenteredLin (1/2) (1/4) (1/1000) = .ok [0, 1/4, 1/2, 3/4, 1] ∧
    (⟨0, 1⟩ : Range ℚ).Mem (1/2) := by decide +kernel

/-- C06 with clipping (`SpreadOverLogEpsilon`), forward: inside the range, strictly increasing,
starts at the begin, geometric up to the clipped last point. `hed` says that `epsilon` is smaller than
the last step of the grid. -/
theorem C06_log_eps_forward (r : Range ℝ) (d o eps : ℝ) (hd : 0 < d) (he : 0 ≤ eps)
    (hr : r.b ≤ r.e) (hb : 0 < r.b + o) (hed : eps < (r.e + o) * (Real.exp d - 1)) :
    ∃ v, r.spreadOverLogEps d o false eps = .ok v ∧ v.Pairwise (· < ·) ∧ (∀ x ∈ v, r.Mem x) ∧
      v.head? = some r.b ∧
      (∀ i (h : i < v.length), v[i] = min ((r.b + o) * Real.exp (i * d) - o) r.e) ∧
      r.e + eps + o < (r.b + o) * Real.exp (v.length * d) := by
  obtain ⟨v, hv, hne, hget, hmem, hmax⟩ := C06_log_forward (r.widen false eps) d o hd
    (by simp [Range.widen]; linarith) (by simpa [Range.widen] using hb)
  have hvl : v.length ≠ 0 := by simpa using hne
  obtain ⟨w, hw, hl, hwget⟩ := r.clipEnds_spec v hvl
  simp only [Range.widen, Bool.false_eq_true, if_false, add_zero] at hget hmem hmax
  have hexp1 : 1 < Real.exp d := Real.one_lt_exp_iff.2 hd
  have hinner : ∀ i, i + 1 < v.length → (r.b + o) * Real.exp (i * d) < r.e + o := by
    intro i hi
    have h1 := hget (i + 1) hi
    have h2 := (hmem v[i + 1] (List.getElem_mem _)).2
    have h3 : Real.exp ((i + 1 : ℕ) * d) = Real.exp (i * d) * Real.exp d := by
      rw [← Real.exp_add]; congr 1; push_cast; ring
    rw [h3] at h1
    by_contra hc
    push Not at hc
    have := mul_le_mul_of_nonneg_right hc (by linarith : 0 ≤ Real.exp d)
    nlinarith
  have hval : ∀ i (h : i < w.length), w[i] = min ((r.b + o) * Real.exp (i * d) - o) r.e := by
    intro i h
    have hg := hget i (by omega)
    have hg' : v[i]'(by omega) = (r.b + o) * Real.exp (i * d) - o := by linarith
    rw [hwget i h (by omega), hg']
    have hge : r.b ≤ (r.b + o) * Real.exp (i * d) - o := by
      have : 1 ≤ Real.exp (i * d) := Real.one_le_exp (by positivity)
      nlinarith
    by_cases hlast : i = v.length - 1
    · rw [if_pos hlast]
      split
      · rw [max_eq_left hge]
      · rfl
    · rw [if_neg hlast]
      have := hinner i (by omega)
      rw [min_eq_left (by linarith)]
      split
      · rw [max_eq_left hge]
      · rfl
  refine ⟨w, ?_, ?_, ?_, ?_, hval, ?_⟩
  · unfold Range.spreadOverLogEps; rw [hv]; exact hw
  · rw [List.pairwise_iff_getElem]
    intro i j hi hj hij
    rw [hval i hi, hval j hj]
    have hlt : (i : ℝ) * d < j * d := mul_lt_mul_of_pos_right (by exact_mod_cast hij) hd
    have hlt' := mul_lt_mul_of_pos_left (Real.exp_lt_exp.2 hlt) hb
    apply lt_of_le_of_lt (min_le_left _ _)
    apply lt_min
    · linarith
    · have := hinner i (by omega); linarith
  · intro x hx
    obtain ⟨i, hi, rfl⟩ := List.getElem_of_mem hx
    rw [hval i hi]
    have : 1 ≤ Real.exp (i * d) := Real.one_le_exp (by positivity)
    exact ⟨le_min (by nlinarith) hr, min_le_right _ _⟩
  · have h0 : 0 < w.length := by omega
    rw [List.head?_eq_getElem?, List.getElem?_eq_getElem h0, hval 0 h0]
    simp [hr]
  · rw [hl]; exact hmax

/-- C06 with clipping, backward. `hed` says that `epsilon` is smaller than the first step and does
not cross the pole of the logarithm. -/
theorem C06_log_eps_backward (r : Range ℝ) (d o eps : ℝ) (hd : 0 < d) (he : 0 ≤ eps)
    (hr : r.b ≤ r.e) (hed : eps * Real.exp d < (r.b + o) * (Real.exp d - 1)) :
    ∃ v, r.spreadOverLogEps d o true eps = .ok v ∧ v.Pairwise (· < ·) ∧ (∀ x ∈ v, r.Mem x) ∧
      v.getLast? = some r.e ∧
      (∀ i (h : i < v.length),
        v[v.length - 1 - i] = max ((r.e + o) * Real.exp (-(i * d)) - o) r.b) ∧
      (r.e + o) * Real.exp (-(v.length * d)) < r.b - eps + o := by
  have hexp1 : 1 < Real.exp d := Real.one_lt_exp_iff.2 hd
  have hb' : 0 < r.b - eps + o := by
    have : 0 ≤ eps * Real.exp d := by positivity
    nlinarith
  obtain ⟨v, hv, hne, hget, hmem, hmax⟩ := C06_log_backward (r.widen true eps) d o hd
    (by simp [Range.widen]; linarith) (by simp [Range.widen]; linarith)
  have hvl : v.length ≠ 0 := by simpa using hne
  obtain ⟨w, hw, hl, hwget⟩ := r.clipEnds_spec v hvl
  simp only [Range.widen, if_true, add_zero] at hget hmem hmax
  have hepos : 0 < r.e + o := by linarith
  have hinner : ∀ i, i + 1 < v.length → r.b + o < (r.e + o) * Real.exp (-(i * d)) := by
    intro i hi
    have h1 := hget (i + 1) hi
    have h2 := (hmem v[v.length - 1 - (i + 1)] (List.getElem_mem _)).1
    have h3 : Real.exp (-((i + 1 : ℕ) * d)) * Real.exp d = Real.exp (-(i * d)) := by
      rw [← Real.exp_add]; congr 1; push_cast; ring
    have h4 : (r.b - eps + o) * Real.exp d ≤ (r.e + o) * Real.exp (-((i + 1 : ℕ) * d)) * Real.exp d :=
      mul_le_mul_of_nonneg_right (by linarith) (by linarith)
    rw [mul_assoc, h3] at h4
    nlinarith
  have hle : ∀ i : ℕ, (r.e + o) * Real.exp (-(i * d)) - o ≤ r.e := by
    intro i
    have : Real.exp (-((i : ℝ) * d)) ≤ 1 := by
      rw [Real.exp_le_one_iff]; have : 0 ≤ (i : ℝ) * d := by positivity
      linarith
    nlinarith
  have hval' : ∀ i (h : i < w.length),
      w[i] = max ((r.e + o) * Real.exp (-((w.length - 1 - i : ℕ) * d)) - o) r.b := by
    intro i h
    have hg := hget (v.length - 1 - i) (by omega)
    simp only [show v.length - 1 - (v.length - 1 - i) = i by omega] at hg
    have hg' : v[i]'(by omega) = (r.e + o) * Real.exp (-((w.length - 1 - i : ℕ) * d)) - o := by
      rw [hl]; linarith
    rw [hwget i h (by omega), hg']
    by_cases hfirst : i = 0
    · simp only [if_pos hfirst]
      split
      · rw [min_eq_left (max_le (hle _) hr)]
      · rfl
    · simp only [if_neg hfirst]
      have := hinner (w.length - 1 - i) (by omega)
      rw [max_eq_left (by linarith)]
      split
      · rw [min_eq_left (hle _)]
      · rfl
  have hval : ∀ i (h : i < w.length),
      w[w.length - 1 - i] = max ((r.e + o) * Real.exp (-(i * d)) - o) r.b := by
    intro i h
    rw [hval' _ (by omega)]
    have : w.length - 1 - (w.length - 1 - i) = i := by omega
    rw [this]
  refine ⟨w, ?_, ?_, ?_, ?_, hval, ?_⟩
  · unfold Range.spreadOverLogEps; rw [hv]; exact hw
  · rw [List.pairwise_iff_getElem]
    intro i j hi hj hij
    rw [hval' i hi, hval' j hj]
    have hlt : -(((w.length - 1 - i : ℕ) : ℝ) * d) < -(((w.length - 1 - j : ℕ) : ℝ) * d) := by
      have : ((w.length - 1 - j : ℕ) : ℝ) < ((w.length - 1 - i : ℕ) : ℝ) := by
        exact_mod_cast (by omega)
      have := mul_lt_mul_of_pos_right this hd
      linarith
    have hlt' := mul_lt_mul_of_pos_left (Real.exp_lt_exp.2 hlt) hepos
    apply lt_of_lt_of_le _ (le_max_left _ _)
    apply max_lt
    · linarith
    · have := hinner (w.length - 1 - j) (by omega); linarith
  · intro x hx
    obtain ⟨i, hi, rfl⟩ := List.getElem_of_mem hx
    rw [hval' i hi]
    exact ⟨le_max_right _ _, max_le (hle _) hr⟩
  · have h0 : 0 < w.length := by omega
    have := hval 0 h0
    rw [List.getLast?_eq_getElem?, List.getElem?_eq_getElem (by omega)]
    simp only [Nat.sub_zero] at this
    rw [this]; simp [hr]
  · rw [hl]; linarith

/-- C07, logarithmic sampling of `1+z`: for a centre inside the range the centred window is strictly
increasing, inside the range and contains the centre. -/
theorem C07_span_log (r : Range ℝ) (c d eps : ℝ) (hd : 0 < d) (he : 0 ≤ eps) (hc : r.Mem c)
    (hed : eps * Real.exp d < (r.b + 1) * (Real.exp d - 1)) :
    ∃ v, r.spanCenteredLog c d eps = .ok v ∧ v.Pairwise (· < ·) ∧ (∀ x ∈ v, r.Mem x) ∧ c ∈ v := by
  have hexp1 : 1 < Real.exp d := Real.one_lt_exp_iff.2 hd
  have hb : 0 < r.b + 1 := by
    have : 0 ≤ eps * Real.exp d := by positivity
    nlinarith
  have hed2 : eps < (r.e + 1) * (Real.exp d - 1) := by
    have h1 : eps ≤ eps * Real.exp d := by nlinarith
    have h2 : r.b ≤ r.e := le_trans hc.1 hc.2
    nlinarith
  obtain ⟨lft, hl, hl1, hl2, hl3, _, _⟩ :=
    C06_log_eps_backward (⟨r.b, c⟩ : Range ℝ) d 1 eps hd he hc.1 hed
  obtain ⟨rgt, hr, hr1, hr2, hr3, _, _⟩ :=
    C06_log_eps_forward (⟨c, r.e⟩ : Range ℝ) d 1 eps hd he hc.2 (by have := hc.1; simp; linarith) hed2
  match rgt, hr3 with
  | x :: t, hr3 =>
    simp only [List.head?_cons, Option.some.injEq] at hr3
    subst hr3
    have hcl : x ∈ lft := List.mem_of_getLast? hl3
    refine ⟨lft ++ t, by simp [Range.spanCenteredLog, hl, hr, Range.appendTail], ?_, ?_,
      List.mem_append_left _ hcl⟩
    · rw [List.pairwise_append]
      refine ⟨hl1, (List.pairwise_cons.1 hr1).2, fun a ha b hb => ?_⟩
      exact lt_of_le_of_lt (hl2 a ha).2 ((List.pairwise_cons.1 hr1).1 b hb)
    · intro a ha
      rcases List.mem_append.1 ha with h | h
      · exact ⟨(hl2 a h).1, le_trans (hl2 a h).2 hc.2⟩
      · have := hr2 a (by simp [h])
        exact ⟨le_trans hc.1 this.1, this.2⟩

example : (0 : ℝ) < Real.log 2 ∧ (⟨0, 3⟩ : Range ℝ).Mem 1 ∧
    (1 / 100 : ℝ) * Real.exp (Real.log 2) < ((⟨0, 3⟩ : Range ℝ).b + 1) * (Real.exp (Real.log 2) - 1) := by
  rw [Real.exp_log (by norm_num)]
  exact ⟨Real.log_pos (by norm_num), ⟨by norm_num, by norm_num⟩, by norm_num⟩

end Amazed
