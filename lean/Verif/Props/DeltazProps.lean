import Mathlib.Algebra.BigOperators.Intervals
import Mathlib.Algebra.BigOperators.Field
import Mathlib.Algebra.Order.BigOperators.Group.Finset
import Mathlib.Algebra.BigOperators.Ring.Finset
import Mathlib.Tactic.Linarith
import Mathlib.Tactic.FieldSimp
import Mathlib.Tactic.Ring
import Mathlib.Tactic.NormNum
import Mathlib.Tactic.Positivity
import Verif.Model.Deltaz
import Verif.Props.PdfzLemmas

/-! # C28: redshift uncertainty -/

namespace Amazed
namespace Deltaz
open Finset
open Pdfz (at_getD)

/-! ## Specification -/

/-- The samples at most `half` away from sample `k`. -/
def window (n k half : Nat) : Finset Nat := Ico (k - half) (min (k + half) (n - 1) + 1)

/-- `∑ (z_i - z_k)² (y_k - y_i)` over a set of samples. -/
noncomputable def S1 (zs y : List ℝ) (k : Nat) (W : Finset Nat) : ℝ :=
  ∑ i ∈ W, (zs.getD i 0 - zs.getD k 0) ^ 2 * (y.getD k 0 - y.getD i 0)

/-- `∑ (z_i - z_k)⁴` over a set of samples. -/
noncomputable def S2 (zs : List ℝ) (k : Nat) (W : Finset Nat) : ℝ := ∑ i ∈ W, (zs.getD i 0 - zs.getD k 0) ^ 4

/-- Sum of the squared differences between `y` and the parabola of curvature `a` with its top at sample `k`. -/
noncomputable def residual (zs y : List ℝ) (k : Nat) (W : Finset Nat) (a : ℝ) : ℝ :=
  ∑ i ∈ W, (y.getD k 0 - y.getD i 0 - a * (zs.getD i 0 - zs.getD k 0) ^ 2) ^ 2

/-! ## Lemmas -/

theorem lowerBound_at {zs : List ℝ} (hz : zs.Pairwise (· < ·)) {k : Nat} (hk : k < zs.length) :
    lowerBound zs (zs.getD k 0) = k := by
  have e : zs.getD k 0 = zs[k] := by rw [List.getD_eq_getElem?_getD, List.getElem?_eq_getElem hk, Option.getD_some]
  rw [e]
  apply lowerBound_eq_of (pairwise_le_of_lt hz) (by omega)
  · intro i hi hik; exact getElem_lt_of_lt hz hik hk
  · intro i hi hik; exact getElem_le_of_le (pairwise_le_of_lt hz) hik hi

theorem getIndices_eq {zs : List ℝ} (hz : zs.Pairwise (· < ·)) {k : Nat} (hk : k < zs.length) (half : Nat) :
    getIndices zs (zs.getD k 0) half = .ok (k, k - half, min (k + half) (zs.length - 1)) := by
  unfold getIndices
  rw [lowerBound_at hz hk, List.getElem?_eq_getElem hk]
  have e : zs.getD k 0 = zs[k] := by rw [List.getD_eq_getElem?_getD, List.getElem?_eq_getElem hk, Option.getD_some]
  simp only
  rw [if_neg (by rw [e]; simp)]

theorem sums_eq {zs y : List ℝ} (k : Nat) {a b : Nat} (hab : a ≤ b) (hb : b < zs.length) (hy : zs.length ≤ y.length) :
    sums y zs (zs.getD k 0) (y.getD k 0) a b = .ok (S1 zs y k (Ico a (b + 1)), S2 zs k (Ico a (b + 1))) := by
  unfold sums
  obtain ⟨s, e1, e2⟩ := Res.foldN_inv
    (f := fun i (s : ℝ × ℝ) => Res.at_ zs i >>= fun x => Res.at_ y i >>= fun y' =>
      .ok (s.1 + (x - zs.getD k 0) * (x - zs.getD k 0) * (y.getD k 0 - y'),
        s.2 + (x - zs.getD k 0) * (x - zs.getD k 0) * ((x - zs.getD k 0) * (x - zs.getD k 0))))
    (P := fun i s => a ≤ i ∧ s = (S1 zs y k (Ico a i), S2 zs k (Ico a i)))
    (b + 1 - a) a (0, 0) (by simp [S1, S2]) (by
      rintro i s h1 h2 ⟨-, rfl⟩
      rw [at_getD (show i < zs.length by omega), at_getD (show i < y.length by omega)]
      refine ⟨_, rfl, by omega, ?_⟩
      unfold S1 S2
      rw [Finset.sum_Ico_succ_top h1, Finset.sum_Ico_succ_top h1]
      congr 1 <;> ring)
  rw [e1, e2.2, show a + (b + 1 - a) = b + 1 by omega]

theorem S2_pos {zs : List ℝ} (hz : zs.Pairwise (· < ·)) {k half : Nat} (hk : k < zs.length) (h2 : 2 ≤ zs.length)
    (hh : 1 ≤ half) : 0 < S2 zs k (window zs.length k half) := by
  have hstep : ∀ i j, i < j → j < zs.length → zs.getD i 0 < zs.getD j 0 := by
    intro i j hij hj
    exact (Pdfz.Grid.mk h2 hz).step hij hj
  unfold S2
  apply Finset.sum_pos'
  · intro i _; positivity
  · by_cases h0 : k + 1 < zs.length
    · refine ⟨k + 1, ?_, ?_⟩
      · unfold window; rw [Finset.mem_Ico]; omega
      · have := hstep k (k + 1) (by omega) h0
        have : 0 < zs.getD (k + 1) 0 - zs.getD k 0 := by linarith
        positivity
    · refine ⟨k - 1, ?_, ?_⟩
      · unfold window; rw [Finset.mem_Ico]; omega
      · have := hstep (k - 1) k (by omega) hk
        have : zs.getD (k - 1) 0 - zs.getD k 0 ≠ 0 := by intro h; linarith
        positivity

theorem compute_eq {zs y : List ℝ} (hz : zs.Pairwise (· < ·)) {k half : Nat} (hk : k < zs.length) (h2 : 2 ≤ zs.length)
    (hh : 1 ≤ half) (hy : zs.length ≤ y.length) :
    compute y zs k (k - half) (min (k + half) (zs.length - 1)) =
      if S1 zs y k (window zs.length k half) ≤ 0 then .throw .DZ_NOT_COMPUTABLE
      else .ok (some (Real.sqrt (S2 zs k (window zs.length k half) / S1 zs y k (window zs.length k half)))) := by
  have hp := S2_pos hz hk h2 hh
  unfold compute
  rw [at_getD hk, Res.bind_ok, at_getD (show k < y.length by omega), Res.bind_ok,
    sums_eq k (by omega) (by omega) hy, Res.bind_ok]
  change (if S2 zs k (window zs.length k half) = 0 then _ else _) = _
  rw [if_neg (ne_of_gt hp)]
  change (if S1 zs y k (window zs.length k half) / S2 zs k (window zs.length k half) ≤ 0 then _ else _) = _
  by_cases h : S1 zs y k (window zs.length k half) ≤ 0
  · rw [if_pos h, if_pos (div_nonpos_of_nonpos_of_nonneg h hp.le)]
  · rw [if_neg h, if_neg (by rw [not_le] at h ⊢; exact div_pos h hp), one_div_div]
    rfl

theorem getDeltaz_eq {zs y : List ℝ} (hz : zs.Pairwise (· < ·)) {k : Nat} (hk : k < zs.length) (h2 : 2 ≤ zs.length)
    (hy : zs.length ≤ y.length) :
    getDeltaz zs y (zs.getD k 0) = .ok (
      if 0 < S1 zs y k (window zs.length k 5) then
        Real.sqrt (S2 zs k (window zs.length k 5) / S1 zs y k (window zs.length k 5))
      else if 0 < S1 zs y k (window zs.length k 2) then
        Real.sqrt (S2 zs k (window zs.length k 2) / S1 zs y k (window zs.length k 2))
      else 0.001) := by
  unfold getDeltaz
  rw [if_neg (by rintro rfl; simp at hk)]
  rw [show (List.range 2).map (fun i => 5 / (i + 1)) = [5, 2] from rfl]
  unfold retry
  rw [getIndices_eq hz hk, Res.bind_ok]
  simp only
  rw [compute_eq hz hk h2 (by omega) hy]
  by_cases h5 : 0 < S1 zs y k (window zs.length k 5)
  · rw [if_pos h5, if_neg (not_le.2 h5)]
    simp
  · rw [if_neg h5, if_pos (not_lt.1 h5)]
    simp only
    unfold retry
    rw [getIndices_eq hz hk, Res.bind_ok]
    simp only
    rw [compute_eq hz hk h2 (by omega) hy]
    by_cases h3 : 0 < S1 zs y k (window zs.length k 2)
    · rw [if_pos h3, if_neg (not_le.2 h3)]
      simp
    · rw [if_neg h3, if_pos (not_lt.1 h3)]
      simp [retry]

/-! ## C28 -/

/-- **C28**: on a grid of at least two redshifts, if the log probability is a parabola `c - (z - z_k)² / d²` on the samples at
most 5 away from the peak, the uncertainty is `d`, whatever the sampling. -/
theorem C28_parabola (zs y : List ℝ) (k : Nat) (c d : ℝ) (hz : zs.Pairwise (· < ·)) (hk : k < zs.length)
    (h2 : 2 ≤ zs.length) (hy : zs.length ≤ y.length) (hd : 0 < d)
    (hpar : ∀ i, i < zs.length → i ≤ k + 5 → k ≤ i + 5 → y.getD i 0 = c - (zs.getD i 0 - zs.getD k 0) ^ 2 / d ^ 2) :
    getDeltaz zs y (zs.getD k 0) = .ok d := by
  have hp := S2_pos hz hk h2 (show 1 ≤ 5 by omega)
  have hS : S1 zs y k (window zs.length k 5) = S2 zs k (window zs.length k 5) / d ^ 2 := by
    unfold S1 S2
    rw [Finset.sum_div]
    apply Finset.sum_congr rfl
    intro i hi
    unfold window at hi
    rw [Finset.mem_Ico] at hi
    rw [hpar i (by omega) (by omega) (by omega), hpar k hk (by omega) (by omega)]
    field_simp
    ring
  rw [getDeltaz_eq hz hk h2 hy, if_pos (by rw [hS]; positivity), hS, div_div_eq_mul_div, mul_div_assoc, mul_comm,
    div_mul_cancel₀ _ (ne_of_gt hp), Real.sqrt_sq hd.le]

/-- **C28**: so for a Gaussian probability of standard deviation `s` the value returned is `√2 s`, not `s`. -/
theorem C28_gaussian (zs y : List ℝ) (k : Nat) (c s : ℝ) (hz : zs.Pairwise (· < ·)) (hk : k < zs.length)
    (h2 : 2 ≤ zs.length) (hy : zs.length ≤ y.length) (hs : 0 < s)
    (hpar : ∀ i, i < zs.length → y.getD i 0 = c - (zs.getD i 0 - zs.getD k 0) ^ 2 / (2 * s ^ 2)) :
    getDeltaz zs y (zs.getD k 0) = .ok (Real.sqrt 2 * s) := by
  apply C28_parabola zs y k c (Real.sqrt 2 * s) hz hk h2 hy (by positivity)
  intro i hi _ _
  rw [hpar i hi, mul_pow, Real.sq_sqrt (by norm_num)]

/-- **C28**: whatever the values, a redshift of the grid gets a positive uncertainty: never an error, a NaN or a read outside
the vectors. It is the fallback 0.001, or comes from a curvature `1 / dz²` that minimises the squared differences with a
parabola over 5 (else 2) samples on both sides. -/
theorem C28_total (zs y : List ℝ) (k : Nat) (hz : zs.Pairwise (· < ·)) (hk : k < zs.length) (hy : zs.length ≤ y.length) :
    ∃ dz, getDeltaz zs y (zs.getD k 0) = .ok dz ∧ 0 < dz ∧
      (dz = 0.001 ∨ ∃ half, (half = 5 ∨ half = 2) ∧
        ∀ a, residual zs y k (window zs.length k half) (1 / dz ^ 2) ≤ residual zs y k (window zs.length k half) a) := by
  have key : ∀ half, 1 ≤ half → 2 ≤ zs.length → 0 < S1 zs y k (window zs.length k half) →
      0 < Real.sqrt (S2 zs k (window zs.length k half) / S1 zs y k (window zs.length k half)) ∧
      ∀ a, residual zs y k (window zs.length k half)
        (1 / Real.sqrt (S2 zs k (window zs.length k half) / S1 zs y k (window zs.length k half)) ^ 2) ≤
        residual zs y k (window zs.length k half) a := by
    intro half hh h2 h1
    have hp := S2_pos hz hk h2 hh
    refine ⟨Real.sqrt_pos.2 (div_pos hp h1), ?_⟩
    intro a
    rw [Real.sq_sqrt (div_pos hp h1).le, one_div_div]
    generalize hW : window zs.length k half = W at *
    have e : ∀ b, residual zs y k W b =
        (∑ i ∈ W, (y.getD k 0 - y.getD i 0) ^ 2) - 2 * b * S1 zs y k W + b ^ 2 * S2 zs k W := by
      intro b
      unfold residual S1 S2
      rw [Finset.mul_sum, Finset.mul_sum, ← Finset.sum_sub_distrib, ← Finset.sum_add_distrib]
      apply Finset.sum_congr rfl
      intro i _; ring
    rw [e, e]
    have h3 : (S1 zs y k W / S2 zs k W) ^ 2 * S2 zs k W = S1 zs y k W / S2 zs k W * S1 zs y k W := by
      field_simp
    have h4 : 0 ≤ (a * S2 zs k W - S1 zs y k W) ^ 2 / S2 zs k W := by positivity
    have h5 : (a * S2 zs k W - S1 zs y k W) ^ 2 / S2 zs k W =
        a ^ 2 * S2 zs k W - 2 * a * S1 zs y k W + S1 zs y k W / S2 zs k W * S1 zs y k W := by
      field_simp
      ring
    linarith
  by_cases h2 : 2 ≤ zs.length
  · rw [getDeltaz_eq hz hk h2 hy]
    refine ⟨_, rfl, ?_⟩
    split_ifs with h5 h3
    · exact ⟨(key 5 (by omega) h2 h5).1, Or.inr ⟨5, Or.inl rfl, (key 5 (by omega) h2 h5).2⟩⟩
    · exact ⟨(key 2 (by omega) h2 h3).1, Or.inr ⟨2, Or.inr rfl, (key 2 (by omega) h2 h3).2⟩⟩
    · exact ⟨by norm_num, Or.inl rfl⟩
  · have hk0 : k = 0 := by omega
    have hl : zs.length = 1 := by omega
    subst hk0
    refine ⟨0.001, ?_, by norm_num, Or.inl rfl⟩
    unfold getDeltaz
    rw [if_neg (by rintro rfl; simp at hk), show (List.range 2).map (fun i => 5 / (i + 1)) = [5, 2] from rfl]
    unfold retry
    rw [getIndices_eq hz hk, Res.bind_ok]
    simp only
    have : compute y zs 0 (0 - 5) (min (0 + 5) (zs.length - 1)) = .ok none := by
      unfold compute
      rw [at_getD hk, Res.bind_ok, at_getD (show 0 < y.length by omega), Res.bind_ok,
        sums_eq 0 (by omega) (by omega) hy, Res.bind_ok]
      simp only
      rw [if_pos]
      rw [hl]
      simp [S2]
    rw [this]
    simp

/-- **C28**: a redshift that is not on the grid, or an empty grid, is an error. -/
theorem C28_not_on_grid (zs y : List ℝ) (z : ℝ) (h : z ∉ zs) : getDeltaz zs y z = .throw .INTERNAL_ERROR := by
  unfold getDeltaz
  split_ifs with h0
  · rfl
  · rw [show (List.range 2).map (fun i => 5 / (i + 1)) = [5, 2] from rfl]
    unfold retry getIndices
    cases he : zs[lowerBound zs z]? with
    | none => simp
    | some x =>
      have : x ∈ zs := List.mem_of_getElem? he
      simp only
      rw [if_pos (by rintro rfl; exact h this)]
      simp

/-! Non vacuity: an irregular grid and a parabola on it. -/
example : getDeltaz [0, 1, 3, 4] ([0, 1, 3, 4].map (fun z => 7 - (z - 1) ^ 2 / 3 ^ 2)) 1 = .ok 3 := by
  have := C28_parabola [0, 1, 3, 4] ([0, 1, 3, 4].map (fun z => 7 - (z - 1) ^ 2 / 3 ^ 2)) 1 7 3
    (by simp [List.pairwise_cons]; norm_num) (by simp) (by simp) (by simp) (by norm_num) (by
      intro i hi _ _
      have : i = 0 ∨ i = 1 ∨ i = 2 ∨ i = 3 := by simp at hi; omega
      rcases this with rfl | rfl | rfl | rfl <;> norm_num)
  simpa using this

end Deltaz
end Amazed
