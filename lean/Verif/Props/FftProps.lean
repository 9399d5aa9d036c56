import Verif.Model.Fft
import Mathlib.Algebra.Field.GeomSum
import Mathlib.Data.List.GetD
import Mathlib.Analysis.SpecialFunctions.Complex.Circle

set_option linter.unusedSectionVars false
set_option linter.unusedVariables false

/-! # The FFT computes the correlation of a spectrum and a template (C127) -/

namespace Amazed
namespace Fft
open Finset

/-! ## Roots of unity -/

theorem tw_add (n : ℕ) (s t : ℤ) : tw n (s + t) = tw n s * tw n t := by
  unfold tw
  rw [← Complex.exp_add]
  congr 1
  push_cast
  ring

theorem tw_zero (n : ℕ) : tw n 0 = 1 := by simp [tw]

theorem tw_conj (n : ℕ) (s : ℤ) : (starRingEnd ℂ) (tw n s) = tw n (-s) := by
  unfold tw
  rw [← Complex.exp_conj]
  congr 1
  have h2 : (starRingEnd ℂ) 2 = 2 := Complex.conj_ofNat 2
  simp [Complex.conj_ofReal, h2]

theorem tw_one_iff (n : ℕ) (hn : 0 < n) (s : ℤ) : tw n s = 1 ↔ (n : ℤ) ∣ s := by
  unfold tw
  rw [Complex.exp_eq_one_iff]
  have hn' : (n : ℂ) ≠ 0 := by exact_mod_cast hn.ne'
  have hpi : (2 * (Real.pi : ℂ) * Complex.I) ≠ 0 := Complex.two_pi_I_ne_zero
  constructor
  · rintro ⟨m, h⟩
    rw [div_eq_iff hn'] at h
    have h2 : (2 * (Real.pi : ℂ) * Complex.I) * (s : ℂ) = (2 * (Real.pi : ℂ) * Complex.I) * ((m * n : ℤ) : ℂ) := by
      push_cast
      rw [h]
      ring
    have h3 := mul_left_cancel₀ hpi h2
    have h4 : s = m * n := by exact_mod_cast h3
    exact ⟨m, by rw [h4]; ring⟩
  · rintro ⟨m, h⟩
    refine ⟨m, ?_⟩
    rw [div_eq_iff hn', h]
    push_cast
    ring

theorem tw_mul (n : ℕ) (s : ℤ) : ∀ k : ℕ, tw n (s * k) = tw n s ^ k
  | 0 => by simp [tw_zero]
  | k + 1 => by
    rw [pow_succ, ← tw_mul n s k, ← tw_add]
    congr 1
    push_cast
    ring

theorem tw_period (n : ℕ) (hn : 0 < n) (s : ℤ) : tw n (s * n) = 1 := (tw_one_iff n hn _).2 ⟨s, by ring⟩

theorem tw_sum (n : ℕ) (hn : 0 < n) (s : ℤ) : ∑ k ∈ range n, tw n (s * k) = if (n : ℤ) ∣ s then (n : ℂ) else 0 := by
  simp only [tw_mul]
  by_cases h : (n : ℤ) ∣ s
  · rw [if_pos h, (tw_one_iff n hn s).2 h]
    simp
  · rw [if_neg h]
    have hne : tw n s ≠ 1 := fun e => h ((tw_one_iff n hn s).1 e)
    rw [geom_sum_eq hne, ← tw_mul, tw_period n hn]
    simp

/-! ## The circular convolution -/

/-- The transform. -/
noncomputable def F (n : ℕ) (x : ℕ → ℝ) (k : ℕ) : ℂ := ∑ j ∈ range n, ((x j : ℝ) : ℂ) * tw n (-((j * k : ℕ) : ℤ))

theorem F_conj (n : ℕ) (hn : 0 < n) (x : ℕ → ℝ) (k : ℕ) (hk : k ≤ n) : (starRingEnd ℂ) (F n x (n - k)) = F n x k := by
  unfold F
  rw [map_sum]
  apply sum_congr rfl
  intro j _
  rw [map_mul, Complex.conj_ofReal, tw_conj]
  congr 1
  have : (- -((j * (n - k) : ℕ) : ℤ)) = (j : ℤ) * n + -((j * k : ℕ) : ℤ) := by
    push_cast [Nat.cast_sub hk]
    ring
  rw [this, tw_add, tw_period n hn, one_mul]

theorem conv_complex (n : ℕ) (hn : 0 < n) (x y : ℕ → ℝ) (j : ℕ) :
    ∑ k ∈ range n, F n x k * F n y k * tw n ((j * k : ℕ) : ℤ) =
      ((n * ∑ a ∈ range n, ∑ b ∈ range n, if (n : ℤ) ∣ (j : ℤ) - a - b then x a * y b else 0 : ℝ) : ℂ) := by
  have h1 : ∀ k, F n x k * F n y k * tw n ((j * k : ℕ) : ℤ) =
      ∑ a ∈ range n, ∑ b ∈ range n, ((x a * y b : ℝ) : ℂ) * tw n (((j : ℤ) - a - b) * k) := by
    intro k
    unfold F
    rw [sum_mul_sum, sum_mul]
    apply sum_congr rfl
    intro a _
    rw [sum_mul]
    apply sum_congr rfl
    intro b _
    have : ((j : ℤ) - a - b) * k = -((a * k : ℕ) : ℤ) + (-((b * k : ℕ) : ℤ) + ((j * k : ℕ) : ℤ)) := by
      push_cast
      ring
    rw [this, tw_add, tw_add]
    push_cast
    ring
  simp only [h1]
  rw [sum_comm]
  push_cast
  rw [mul_sum]
  apply sum_congr rfl
  intro a _
  rw [sum_comm, mul_sum]
  apply sum_congr rfl
  intro b _
  rw [← mul_sum, tw_sum n hn]
  split
  · push_cast
    ring
  · simp

theorem r2c_get (n : ℕ) (x : List ℝ) (k : ℕ) (hk : k ≤ n / 2) : (r2c n x).getD k 0 = F n (fun j => x.getD j 0) k := by
  unfold r2c F
  rw [List.getD_eq_getElem _ _ (by simp; omega)]
  simp

theorem r2c_length (n : ℕ) (x : List ℝ) : (r2c n x).length = n / 2 + 1 := by simp [r2c]

/-- The backward transform of the product of two transforms is `n` times the circular convolution. -/
theorem c2r_mul (n : ℕ) (hn : 0 < n) (x y : List ℝ) (j : ℕ) (hj : j < n) :
    (c2r n (List.zipWith (· * ·) (r2c n y) (r2c n x))).getD j 0 =
      n * ∑ a ∈ range n, ∑ b ∈ range n, if (n : ℤ) ∣ (j : ℤ) - a - b then x.getD a 0 * y.getD b 0 else 0 := by
  unfold c2r
  rw [List.getD_eq_getElem _ _ (by simpa using hj)]
  rw [List.getElem_map, List.getElem_range]
  have hz : ∀ k, k ≤ n / 2 → (List.zipWith (· * ·) (r2c n y) (r2c n x)).getD k 0 =
      F n (fun j => x.getD j 0) k * F n (fun j => y.getD j 0) k := by
    intro k hk
    have hl1 : k < (r2c n x).length := by rw [r2c_length]; omega
    have hl2 : k < (r2c n y).length := by rw [r2c_length]; omega
    rw [← r2c_get n x k hk, ← r2c_get n y k hk, List.getD_eq_getElem _ _ (by rw [List.length_zipWith]; omega),
      List.getD_eq_getElem _ _ hl1, List.getD_eq_getElem _ _ hl2, List.getElem_zipWith]
    ring
  have hext : ∀ k ∈ range n, (if k ≤ n / 2 then (List.zipWith (· * ·) (r2c n y) (r2c n x)).getD k 0
      else (starRingEnd ℂ) ((List.zipWith (· * ·) (r2c n y) (r2c n x)).getD (n - k) 0)) * tw n ((j * k : ℕ) : ℤ) =
      F n (fun j => x.getD j 0) k * F n (fun j => y.getD j 0) k * tw n ((j * k : ℕ) : ℤ) := by
    intro k hk
    rw [mem_range] at hk
    congr 1
    by_cases h : k ≤ n / 2
    · rw [if_pos h, hz k h]
    · rw [if_neg h, hz (n - k) (by omega), map_mul, F_conj n hn _ k hk.le, F_conj n hn _ k hk.le]
  rw [sum_congr rfl hext, conv_complex n hn, Complex.ofReal_re]

/-! ## Specification -/

/-- Entry `k` of the correlation: the sum of the products of the samples of `x` with those of `y` from `k`. -/
noncomputable def corrAt (x y : List ℝ) (k : ℕ) : ℝ := ∑ i ∈ range x.length, x.getD i 0 * y.getD (k + i) 0

/-- The buffers are empty or hold the transforms of the spectra `x0` and `x1`. -/
structure CacheOf (n : ℕ) (x0 x1 : List ℝ) (c : Cache) : Prop where
  zero : c.fluxOverErr2 = none ∨ c.fluxOverErr2 = some (r2c n (padSpc n x0))
  one : c.oneOverErr2 = none ∨ c.oneOverErr2 = some (r2c n (padSpc n x1))

/-! ## C127 -/

theorem padSpc_get (n : ℕ) (x : List ℝ) (h : x.length ≤ n) (a : ℕ) (ha : a < n) :
    (padSpc n x).getD a 0 = if n - x.length ≤ a then x.getD (n - 1 - a) 0 else 0 := by
  unfold padSpc
  by_cases c : n - x.length ≤ a
  · rw [if_pos c, List.getD_append_right _ _ _ _ (by simpa using c), List.length_replicate,
      List.getD_eq_getElem _ _ (by rw [List.length_reverse]; omega), List.getElem_reverse, List.getD_eq_getElem _ _ (by omega)]
    congr 1
    omega
  · rw [if_neg c, List.getD_append _ _ _ _ (by simp; omega), List.getD_eq_getElem _ _ (by simp; omega), List.getElem_replicate]

theorem padTpl_get (n : ℕ) (y : List ℝ) (b : ℕ) : (padTpl n y).getD b 0 = y.getD b 0 := by
  unfold padTpl
  by_cases c : b < y.length
  · rw [List.getD_append _ _ _ _ c]
  · rw [List.getD_append_right _ _ _ _ (by omega), List.getD_eq_default y _ (by omega)]
    by_cases h : b - y.length < (List.replicate (n - y.length) (0 : ℝ)).length
    · rw [List.getD_eq_getElem _ _ h, List.getElem_replicate]
    · rw [List.getD_eq_default _ _ (by omega)]

/-- The circular convolution of the padded arrays at the index read for the shift `k`. -/
theorem conv_shift (n : ℕ) (x y : List ℝ) (hn : 0 < n) (hx : x.length ≤ n) (hy : y.length ≤ n) (k : ℕ) (hk : k + x.length ≤ y.length) :
    ∑ a ∈ range n, ∑ b ∈ range n, (if (n : ℤ) ∣ (((if k = 0 then n - 1 else k - 1 : ℕ)) : ℤ) - a - b then
      (padSpc n x).getD a 0 * (padTpl n y).getD b 0 else 0) = corrAt x y k := by
  unfold corrAt
  have hj : ∃ c : ℤ, (((if k = 0 then n - 1 else k - 1 : ℕ)) : ℤ) = k - 1 + n * c := by
    split
    · rename_i h
      exact ⟨1, by omega⟩
    · exact ⟨0, by omega⟩
  obtain ⟨c, hc⟩ := hj
  have hinner : ∀ a ∈ range n, (∑ b ∈ range n, (if (n : ℤ) ∣ (((if k = 0 then n - 1 else k - 1 : ℕ)) : ℤ) - a - b then
      (padSpc n x).getD a 0 * (padTpl n y).getD b 0 else 0)) =
      if n - x.length ≤ a then x.getD (n - 1 - a) 0 * y.getD (k + (n - 1 - a)) 0 else 0 := by
    intro a ha
    rw [mem_range] at ha
    by_cases hA : n - x.length ≤ a
    · rw [if_pos hA]
      rw [sum_eq_single (k + (n - 1 - a))]
      · rw [if_pos, padSpc_get n x hx a ha, if_pos hA, padTpl_get]
        rw [hc]
        refine ⟨c - 1, ?_⟩
        push_cast [Nat.cast_sub (by omega : a ≤ n - 1), Nat.cast_sub (by omega : 1 ≤ n)]
        ring
      · intro b hb hne
        rw [mem_range] at hb
        rw [if_neg]
        rintro ⟨m, hm⟩
        rw [hc] at hm
        apply hne
        have h1 : (b : ℤ) = k + (n - 1 - a : ℕ) + n * (c - 1 - m) := by
          push_cast [Nat.cast_sub (by omega : a ≤ n - 1), Nat.cast_sub (by omega : 1 ≤ n)]
          linarith
        have hlt : (k + (n - 1 - a) : ℕ) < n := by omega
        have : c - 1 - m = 0 := by
          by_contra hne0
          rcases lt_or_gt_of_ne hne0 with hl | hl
          · have : (n : ℤ) * (c - 1 - m) ≤ -n := by nlinarith
            omega
          · have : (n : ℤ) ≤ n * (c - 1 - m) := by nlinarith
            omega
        rw [this] at h1
        omega
      · intro h
        exfalso
        apply h
        rw [mem_range]
        omega
    · rw [if_neg hA]
      apply sum_eq_zero
      intro b _
      rw [padSpc_get n x hx a ha, if_neg hA]
      simp
  rw [sum_congr rfl hinner]
  rw [← sum_filter]
  refine sum_bij' (fun a _ => n - 1 - a) (fun i _ => n - 1 - i) ?_ ?_ ?_ ?_ ?_
  · intro a ha
    rw [mem_filter, mem_range] at ha
    rw [mem_range]
    omega
  · intro i hi
    rw [mem_range] at hi
    rw [mem_filter, mem_range]
    omega
  · intro a ha
    rw [mem_filter, mem_range] at ha
    omega
  · intro i hi
    rw [mem_range] at hi
    omega
  · intro a ha
    rfl

theorem spcFft_spec (n : ℕ) (c : Cache) (x0 x1 : List ℝ) (h : CacheOf n x0 x1 c) (x : List ℝ) (flag : ℤ)
    (hx : (flag = 0 → x = x0) ∧ (flag = 1 → x = x1)) :
    (spcFft n c x flag).1 = r2c n (padSpc n x) ∧ CacheOf n x0 x1 (spcFft n c x flag).2 := by
  unfold spcFft
  by_cases h0 : flag = 0
  · rw [if_pos h0]
    rcases h.zero with e | e <;> rw [e]
    · exact ⟨rfl, ⟨Or.inr (by simp [hx.1 h0]), h.one⟩⟩
    · exact ⟨by simp [hx.1 h0], h⟩
  · rw [if_neg h0]
    by_cases h1 : flag = 1
    · rw [if_pos h1]
      rcases h.one with e | e <;> rw [e]
      · exact ⟨rfl, ⟨h.zero, Or.inr (by simp [hx.2 h1])⟩⟩
      · exact ⟨by simp [hx.2 h1], h⟩
    · rw [if_neg h1]
      exact ⟨rfl, h⟩

/-- **C127**: for every spectrum and template that is at least as long, and every size of the buffers that holds them, the sums computed
with the Fourier transforms are the correlation: one entry per shift, the sum of the products of the spectrum with the template
from this shift. The transform of the spectrum kept from an earlier call is used, which is right as long as the calls of one
kind are made with one spectrum; the buffers stay right for the next call. -/
theorem C127_correlation (n : ℕ) (c : Cache) (x0 x1 x y : List ℝ) (flag : ℤ) (hc : CacheOf n x0 x1 c)
    (hx : (flag = 0 → x = x0) ∧ (flag = 1 → x = x1)) (hne : y ≠ []) (hy : y.length ≤ n) (hxy : x.length ≤ y.length) :
    ∃ (l : List ℝ) (c' : Cache), estimateXtY n c x y flag = .ok (l, c') ∧ CacheOf n x0 x1 c' ∧ l.length = y.length - x.length + 1 ∧
      ∀ (k : ℕ) (v : ℝ), l[k]? = some v → v = ∑ i ∈ range x.length, x.getD i 0 * y.getD (k + i) 0 := by
  have hypos := List.length_pos_of_ne_nil hne
  have hn : 0 < n := by omega
  obtain ⟨s1, s2⟩ := spcFft_spec n c x0 x1 hc x flag hx
  unfold estimateXtY
  rw [if_neg (by omega)]
  refine ⟨_, _, rfl, s2, by simp, ?_⟩
  intro k v hv
  obtain ⟨hk, hv⟩ := List.getElem?_eq_some_iff.1 hv
  rw [List.length_map, List.length_range] at hk
  rw [List.getElem_map, List.getElem_range] at hv
  rw [← hv, s1, c2r_mul n hn _ _ _ (by split <;> omega), conv_shift n x y hn (by omega) hy k (by omega), mul_comm, mul_div_assoc,
    div_self (by exact_mod_cast hn.ne'), mul_one]
  rfl

/-- **C127**: right after the initialisation the buffers are right for any two spectra. -/
theorem C127_init (n : ℕ) (x0 x1 : List ℝ) : CacheOf n x0 x1 Cache.init := ⟨Or.inl rfl, Or.inl rfl⟩

/-- **C127**: a second spectrum used with the same kind gets the sums of the first one: the buffer is not compared with it. -/
theorem C127_stale (n : ℕ) (c : Cache) (x0 x y : List ℝ) (hc : c.fluxOverErr2 = some (r2c n (padSpc n x0))) (hl : x.length = x0.length) :
    estimateXtY n c x y 0 = estimateXtY n c x0 y 0 := by
  unfold estimateXtY spcFft
  rw [hc, hl]
  simp

/-- The sums of a spectrum of 2 and a template of 3 samples, in buffers of 4. -/
example : ∃ c', estimateXtY 4 Cache.init [2, 3] [5, 7, 11] 0 = .ok ([31, 47], c') := by
  obtain ⟨l, c', h, _, hl, hv⟩ := C127_correlation 4 Cache.init [2, 3] [] [2, 3] [5, 7, 11] 0 (C127_init _ _ _)
    ⟨fun _ => rfl, fun h => absurd h (by norm_num)⟩ (by simp) (by simp) (by simp)
  refine ⟨c', ?_⟩
  rw [h]
  congr 2
  apply List.ext_getElem?
  intro k
  match k, hl with
  | 0, hl =>
    rw [List.getElem?_eq_getElem (by simp [hl])]
    have := hv 0 _ (List.getElem?_eq_getElem (by simp [hl]))
    rw [this]
    simp [Finset.sum_range_succ]
    norm_num
  | 1, hl =>
    rw [List.getElem?_eq_getElem (by simp [hl])]
    have := hv 1 _ (List.getElem?_eq_getElem (by simp [hl]))
    rw [this]
    simp [Finset.sum_range_succ]
    norm_num
  | k + 2, hl =>
    rw [List.getElem?_eq_none (by simp [hl]), List.getElem?_eq_none (by simp)]

/-- **C127, false of the code**: the "fast" sums are not those of the shifts: for the template 1, 2, 3 and a spectrum of ones, the sum of
the shift 1 is 2 + 3, and 1 + 2 - 1 + 2 is returned. -/
theorem C127_mtm_fast_counterexample :
    mtmFast ([1, 1] : List ℚ) [1, 2, 3] 2 = .ok [3, 4] ∧ (1 * 2 + 1 * 3 : ℚ) = 5 := by
  constructor
  · decide +kernel
  · norm_num

end Fft
end Amazed
