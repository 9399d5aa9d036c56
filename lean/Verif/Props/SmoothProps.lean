import Mathlib.Tactic.Linarith
import Mathlib.Tactic.Ring
import Mathlib.Tactic.FieldSimp
import Mathlib.Algebra.Order.BigOperators.Group.List
import Verif.Model.FluxAxis
import Verif.Props.MedianProps

/-! # C38: smoothing of a flux axis -/

set_option linter.unusedSectionVars false

namespace Amazed
namespace Flux

section
variable {K : Type} [Field K] [LinearOrder K] [IsStrictOrderedRing K]

/-- Specification of the window of sample `i`: the samples at distance `h` at most, in order. -/
def window (l : List K) (h i : Nat) : List K :=
  (l.zipIdx.filter (fun p => decide (i ≤ p.2 + h ∧ p.2 ≤ i + h))).map Prod.fst

theorem zipIdx_filter (l : List K) : ∀ (s a b : Nat),
    ((l.zipIdx s).filter (fun p => decide (a ≤ p.2 ∧ p.2 < b))).map Prod.fst = (l.drop (a - s)).take (b - max a s) := by
  induction l with
  | nil => intro s a b; simp
  | cons x l ih =>
    intro s a b
    rw [List.zipIdx_cons, List.filter_cons]
    by_cases h : a ≤ s ∧ s < b
    · rw [if_pos (by simpa using h), List.map_cons, ih (s + 1) a b]
      have h1 : a - s = 0 := by omega
      have h2 : a - (s + 1) = 0 := by omega
      have h3 : b - max a s = (b - max a (s + 1)) + 1 := by omega
      rw [h1, h2, h3]
      simp
    · rw [if_neg (by simpa using h), ih (s + 1) a b]
      by_cases ha : a ≤ s
      · have hb : b ≤ s := by omega
        have h3 : b - max a s = 0 := by omega
        have h4 : b - max a (s + 1) = 0 := by omega
        rw [h3, h4]; simp
      · have h1 : a - s = (a - (s + 1)) + 1 := by omega
        have h2 : max a s = max a (s + 1) := by omega
        rw [h1, h2, List.drop_succ_cons]

theorem window_eq (l : List K) (h i : Nat) : window l h i = (l.drop (i - h)).take (i + h + 1 - (i - h)) := by
  have hf : (fun p : K × Nat => decide (i ≤ p.2 + h ∧ p.2 ≤ i + h)) =
      (fun p : K × Nat => decide (i - h ≤ p.2 ∧ p.2 < i + h + 1)) := by
    funext p
    apply decide_eq_decide.2
    omega
  unfold window
  rw [hf, zipIdx_filter]
  simp

theorem slice_eq (l : List K) (h i : Nat) (hi : i < l.length) :
    slice l (max 0 ((i : Int) - h)) (min ((l.length : Int) - 1) ((i : Int) + h)) = .ok (window l h i) := by
  unfold slice
  rw [if_neg (by omega), window_eq]
  have h1 : (max 0 ((i : Int) - h)).toNat = i - h := by omega
  rw [h1]
  congr 1
  by_cases hc : i + h < l.length
  · congr 1
    omega
  · rw [List.take_of_length_le, List.take_of_length_le]
    · rw [List.length_drop]; omega
    · rw [List.length_drop]; omega

theorem window_length (l : List K) (h i : Nat) (hi : i < l.length) :
    (window l h i).length = min (l.length - 1) (i + h) + 1 - (i - h) := by
  rw [window_eq, List.length_take, List.length_drop]; omega

theorem window_ne_nil (l : List K) (h i : Nat) (hi : i < l.length) : window l h i ≠ [] := by
  intro he
  have := window_length l h i hi
  rw [he] at this
  simp at this
  omega

theorem window_subset (l : List K) (h i : Nat) : ∀ x ∈ window l h i, x ∈ l := by
  intro x hx
  rw [window_eq] at hx
  exact List.mem_of_mem_drop (List.mem_of_mem_take hx)

/-- The smoothing functions apply the statistic to each window. -/
theorem applySmooth_ok (find : List K → Res K) (h : Nat) (l : List K) (hh : 1 ≤ h) (hl : h + 1 ≤ l.length)
    (hfind : ∀ i, i < l.length → ∃ m, find (window l h i) = .ok m) :
    ∃ t, applySmooth find (h : Int) l = .ok (true, t) ∧ t.length = l.length ∧
      ∀ (i : Nat) m, t[i]? = some m → find (window l h i) = .ok m := by
  have hg : ∀ i, i < l.length → ∃ m, (slice l (max 0 ((i : Int) - h)) (min ((l.length : Int) - 1) ((i : Int) + h)) >>= find)
      = .ok m := by
    intro i hi
    rw [slice_eq l h i hi, Res.bind_ok]
    exact hfind i hi
  choose! g hg' using hg
  have htab := Res.tab_ok (g := fun i => slice l (max 0 ((i : Int) - h)) (min ((l.length : Int) - 1) ((i : Int) + h)) >>= find)
    (h := g) l.length hg'
  refine ⟨(List.range l.length).map g, ?_, by simp, ?_⟩
  · unfold applySmooth smoothLoop
    rw [if_neg (by omega), if_neg (by omega)]
    simp only
    rw [htab, Res.bind_ok]
  · intro i m hm
    obtain ⟨a, h1, h2⟩ := Res.tab_get l.length htab i (by
      have := (List.getElem?_eq_some_iff.1 hm).1; simpa using this)
    rw [hm] at h1; cases h1
    rw [slice_eq l h i (by have := (List.getElem?_eq_some_iff.1 hm).1; simpa using this), Res.bind_ok] at h2
    exact h2

theorem foldl_add_eq (l : List K) : l.foldl (· + ·) 0 = l.sum := by
  rw [List.sum_eq_foldl]

theorem sum_bounds (l : List K) (lo hi : K) (h : ∀ x ∈ l, lo ≤ x ∧ x ≤ hi) :
    lo * l.length ≤ l.sum ∧ l.sum ≤ hi * l.length := by
  induction l with
  | nil => simp
  | cons x l ih =>
    have h1 := ih (fun y hy => h y (List.mem_cons_of_mem _ hy))
    have h2 := h x (by simp)
    simp only [List.sum_cons, List.length_cons]
    push_cast
    constructor <;> linarith [h1.1, h1.2, h2.1, h2.2]

/-- **C38, mean.** Smoothing with a half width `h ≥ 1` a spectrum of more than `h` samples replaces each sample by the
mean of the samples at distance `h` at most, never reading outside of the spectrum. -/
theorem C38_mean (h : Nat) (l : List K) (hh : 1 ≤ h) (hl : h + 1 ≤ l.length) :
    ∃ t, applyMeanSmooth (h : Int) l = .ok (true, t) ∧ t.length = l.length ∧
      ∀ (i : Nat) m, t[i]? = some m → m = (window l h i).sum / ((window l h i).length : K) := by
  obtain ⟨t, h1, h2, h3⟩ := applySmooth_ok mean h l hh hl (by
    intro i hi
    unfold mean
    rw [if_neg (by simpa using window_ne_nil l h i hi)]
    exact ⟨_, rfl⟩)
  refine ⟨t, h1, h2, ?_⟩
  intro i m hm
  have h4 := h3 i m hm
  unfold mean at h4
  split at h4
  · simp at h4
  · cases h4
    rw [foldl_add_eq]

/-- **C38, mean.** The smoothed samples stay between any bounds of the original ones; in particular a constant
spectrum is unchanged. -/
theorem C38_mean_bounds (h : Nat) (l : List K) (hh : 1 ≤ h) (hl : h + 1 ≤ l.length) (lo hi : K)
    (hb : ∀ x ∈ l, lo ≤ x ∧ x ≤ hi) :
    ∃ t, applyMeanSmooth (h : Int) l = .ok (true, t) ∧ ∀ x ∈ t, lo ≤ x ∧ x ≤ hi := by
  obtain ⟨t, h1, h2, h3⟩ := C38_mean h l hh hl
  refine ⟨t, h1, ?_⟩
  intro x hx
  obtain ⟨i, hilt, rfl⟩ := List.getElem_of_mem hx
  rw [h3 i _ (List.getElem?_eq_getElem hilt)]
  have hne := window_ne_nil l h i (by omega)
  have hpos : (0 : K) < ((window l h i).length : K) := by exact_mod_cast List.length_pos_iff.2 hne
  obtain ⟨h4, h5⟩ := sum_bounds (window l h i) lo hi (fun y hy => hb y (window_subset l h i y hy))
  rw [le_div_iff₀ hpos, div_le_iff₀ hpos]
  exact ⟨h4, h5⟩

theorem C38_mean_constant (h : Nat) (n : Nat) (c : K) (hh : 1 ≤ h) (hl : h + 1 ≤ n) :
    applyMeanSmooth (h : Int) (List.replicate n c) = .ok (true, List.replicate n c) := by
  obtain ⟨t, h1, h2, _⟩ := C38_mean h (List.replicate n c) hh (by simpa using hl)
  obtain ⟨t', h1', h3⟩ := C38_mean_bounds h (List.replicate n c) hh (by simpa using hl) c c
    (fun x hx => by rw [(List.mem_replicate.1 hx).2]; exact ⟨le_refl _, le_refl _⟩)
  rw [h1] at h1'; cases h1'
  rw [h1]
  congr 2
  rw [List.eq_replicate_iff]
  exact ⟨by simpa using h2, fun b hb => le_antisymm (h3 b hb).2 (h3 b hb).1⟩

/-- Specification of the median that the library computes: for the sorted values `s`, the middle one, or the mean of the
two middle ones up to 1000 values, the lower one of them beyond. -/
def IsMedian (w : List K) (m : K) : Prop :=
  ∃ s, Median.SortedOf w s ∧ ∃ a b, s[(w.length - 1) / 2]? = some a ∧ s[w.length / 2]? = some b ∧
    m = if w.length % 2 = 0 ∧ w.length ≤ 1000 then (a + b) / 2 else a

/-- **C38, median.** The same for the median: each sample becomes the median of its window. -/
theorem C38_median (h : Nat) (l : List K) (hh : 1 ≤ h) (hl : h + 1 ≤ l.length) :
    ∃ t, applyMedianSmooth (h : Int) l = .ok (true, t) ∧ t.length = l.length ∧
      ∀ (i : Nat) m, t[i]? = some m → IsMedian (window l h i) m := by
  have key : ∀ i, i < l.length → ∃ m, Median.find (window l h i) = .ok m ∧ IsMedian (window l h i) m := by
    intro i hi
    have hs := Median.sortedOf_mergeSort (window l h i)
    obtain ⟨h1, h2, h3⟩ := Median.C13_find (window l h i) _ hs (window_ne_nil l h i hi)
    by_cases ho : (window l h i).length % 2 = 1
    · rw [if_pos ho] at h3
      refine ⟨_, h3, _, hs, _, _, List.getElem?_eq_getElem h1, List.getElem?_eq_getElem h2, ?_⟩
      rw [if_neg (by omega)]
      congr 1
      omega
    · rw [if_neg ho] at h3
      by_cases hb : (window l h i).length ≤ 1000
      · rw [if_pos hb] at h3
        refine ⟨_, h3, _, hs, _, _, List.getElem?_eq_getElem h1, List.getElem?_eq_getElem h2, ?_⟩
        rw [if_pos ⟨by omega, hb⟩]
      · rw [if_neg hb] at h3
        refine ⟨_, h3, _, hs, _, _, List.getElem?_eq_getElem h1, List.getElem?_eq_getElem h2, ?_⟩
        rw [if_neg (by omega)]
  obtain ⟨t, h1, h2, h3⟩ := applySmooth_ok Median.find h l hh hl (fun i hi => by
    obtain ⟨m, hm, _⟩ := key i hi; exact ⟨m, hm⟩)
  refine ⟨t, h1, h2, ?_⟩
  intro i m hm
  obtain ⟨m', hm1, hm2⟩ := key i (by have := (List.getElem?_eq_some_iff.1 hm).1; omega)
  have := h3 i m hm
  rw [this] at hm1; cases hm1
  exact hm2

/-- **C38.** The median also stays between any bounds of the original samples. -/
theorem C38_median_bounds (h : Nat) (l : List K) (hh : 1 ≤ h) (hl : h + 1 ≤ l.length) (lo hi : K)
    (hb : ∀ x ∈ l, lo ≤ x ∧ x ≤ hi) :
    ∃ t, applyMedianSmooth (h : Int) l = .ok (true, t) ∧ ∀ x ∈ t, lo ≤ x ∧ x ≤ hi := by
  obtain ⟨t, h1, h2, h3⟩ := C38_median h l hh hl
  refine ⟨t, h1, ?_⟩
  intro x hx
  obtain ⟨i, hilt, rfl⟩ := List.getElem_of_mem hx
  obtain ⟨s, hs, a, b, ha, hb', he⟩ := h3 i _ (List.getElem?_eq_getElem hilt)
  have hin : ∀ y ∈ s, lo ≤ y ∧ y ≤ hi := by
    intro y hy
    exact hb y (window_subset l h i y (hs.perm.mem_iff.1 hy))
  have h4 := hin a (List.mem_of_getElem? ha)
  have h5 := hin b (List.mem_of_getElem? hb')
  rw [he]
  split
  · have h2 : (0 : K) < 2 := by norm_num
    rw [le_div_iff₀ h2, div_le_iff₀ h2]
    constructor <;> linarith [h4.1, h4.2, h5.1, h5.2]
  · exact h4

/-- **C38.** A null width, or one not smaller than the spectrum, changes nothing. -/
theorem C38_no_op (h : Int) (l : List K) (hc : h = 0 ∨ (l.length : Int) ≤ h) :
    applyMeanSmooth h l = .ok (false, l) ∧ applyMedianSmooth h l = .ok (false, l) := by
  unfold applyMeanSmooth applyMedianSmooth applySmooth
  by_cases h0 : h = 0
  · simp [h0]
  · have : (l.length : Int) < h + 1 := by omega
    simp [h0, this]

/-- A negative width is not refused: it gives inverted ranges. -/
theorem C38_negative_width (h : Nat) (l : List K) (hh : 1 ≤ h) (hl : l ≠ []) :
    applyMeanSmooth (-(h : Int)) l = .ub ∧ applyMedianSmooth (-(h : Int)) l = .ub := by
  have hpos : 0 < l.length := List.length_pos_iff.2 hl
  have key : ∀ find : List K → Res K, applySmooth find (-(h : Int)) l = .ub := by
    intro find
    unfold applySmooth smoothLoop
    rw [if_neg (by omega), if_neg (by omega)]
    simp only
    rw [Res.tab_ub l.length 0 hpos (fun i hi => by omega)]
    · rfl
    · unfold slice
      rw [if_pos]
      · rfl
      · right; left
        omega
  exact ⟨key _, key _⟩

example : applyMeanSmooth 1 ([1, 2, 6, 1] : List ℚ) = .ok (true, [3 / 2, 3, 3, 7 / 2]) := by decide +kernel
example : applyMedianSmooth 1 ([1, 5, 3, 1] : List ℚ) = .ok (true, [3, 3, 3, 2]) := by
  obtain ⟨t, h1, h2, h3⟩ := C38_median 1 ([1, 5, 3, 1] : List ℚ) (by decide) (by decide)
  have hl : t.length = 4 := h2
  match t, hl with
  | [a, b, c, d], _ =>
    have e : ∀ (s : List ℚ) (w : List ℚ), Median.SortedOf w s → ∀ s', Median.SortedOf w s' → s = s' :=
      fun s w h s' h' => h.eq.trans h'.eq.symm
    have w0 : window ([1, 5, 3, 1] : List ℚ) 1 0 = [1, 5] := by decide +kernel
    have w1 : window ([1, 5, 3, 1] : List ℚ) 1 1 = [1, 5, 3] := by decide +kernel
    have w2 : window ([1, 5, 3, 1] : List ℚ) 1 2 = [5, 3, 1] := by decide +kernel
    have w3 : window ([1, 5, 3, 1] : List ℚ) 1 3 = [3, 1] := by decide +kernel
    obtain ⟨s0, hs0, a0, b0, p0, q0, r0⟩ := h3 0 a rfl
    obtain ⟨s1, hs1, a1, b1, p1, q1, r1⟩ := h3 1 b rfl
    obtain ⟨s2, hs2, a2, b2, p2, q2, r2⟩ := h3 2 c rfl
    obtain ⟨s3, hs3, a3, b3, p3, q3, r3⟩ := h3 3 d rfl
    rw [w0] at hs0 p0 q0 r0
    rw [w1] at hs1 p1 q1 r1
    rw [w2] at hs2 p2 q2 r2
    rw [w3] at hs3 p3 q3 r3
    have t0 := e _ _ hs0 [1, 5] ⟨by decide +kernel, by decide +kernel⟩
    have t1 := e _ _ hs1 [1, 3, 5] ⟨by decide +kernel, by decide +kernel⟩
    have t2 := e _ _ hs2 [1, 3, 5] ⟨by decide +kernel, by decide +kernel⟩
    have t3 := e _ _ hs3 [1, 3] ⟨by decide +kernel, by decide +kernel⟩
    subst t0 t1 t2 t3
    simp at p0 q0 p1 q1 p2 q2 p3 q3 r0 r1 r2 r3
    have h1' : applyMedianSmooth (1 : Int) ([1, 5, 3, 1] : List ℚ) = .ok (true, [a, b, c, d]) := h1
    rw [h1', r0, r1, r2, r3, ← p0, ← q0, ← p1, ← p2, ← p3, ← q3]
    norm_num

end
end Flux
end Amazed
