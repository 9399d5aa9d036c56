import Mathlib.Tactic.Linarith
import Mathlib.Tactic.FieldSimp
import Mathlib.Tactic.Ring
import Mathlib.Tactic.NormNum
import Mathlib.Algebra.BigOperators.Ring.Finset
import Mathlib.Algebra.Order.BigOperators.Group.Finset
import Verif.Model.Pdfz

/-! # Lemmas about sums over redshift grids -/

namespace Amazed
namespace Pdfz
open Finset

/-! ## Specification -/

/-- Trapezoid integral of the samples `f` over the grid `z`. -/
noncomputable def Trapz (z f : List ℝ) : ℝ :=
  ∑ j ∈ range (z.length - 1), (f.getD j 0 + f.getD (j + 1) 0) / 2 * (z.getD (j + 1) 0 - z.getD j 0)

/-- A grid on which a PDF can be integrated: at least two points, strictly increasing. -/
structure Grid (z : List ℝ) : Prop where
  two : 2 ≤ z.length
  incr : z.Pairwise (· < ·)

/-! ## Lemmas -/

theorem at_getD {l : List ℝ} {i : Nat} (h : i < l.length) : Res.at_ l i = .ok (l.getD i 0) := by
  rw [Res.at_of_lt h, List.getD_eq_getElem?_getD, List.getElem?_eq_getElem h, Option.getD_some]

theorem getD_map {l : List ℝ} {g : ℝ → ℝ} {i : Nat} (h : i < l.length) :
    (l.map g).getD i 0 = g (l.getD i 0) := by
  simp [List.getD_eq_getElem?_getD, List.getElem?_eq_getElem h]

theorem Grid.step {z : List ℝ} (h : Grid z) {i j : Nat} (hij : i < j) (hj : j < z.length) :
    z.getD i 0 < z.getD j 0 := by
  have hi : i < z.length := by omega
  rw [List.getD_eq_getElem?_getD, List.getD_eq_getElem?_getD, List.getElem?_eq_getElem hi,
    List.getElem?_eq_getElem hj, Option.getD_some, Option.getD_some]
  exact (List.pairwise_iff_getElem.1 h.incr) i j hi hj hij

theorem Trapz_congr {z f g : List ℝ} (h : ∀ i, i < z.length → f.getD i 0 = g.getD i 0) : Trapz z f = Trapz z g := by
  unfold Trapz
  apply Finset.sum_congr rfl
  intro j hj
  rw [Finset.mem_range] at hj
  rw [h j (by omega), h (j + 1) (by omega)]

theorem Trapz_map_mul {z f : List ℝ} (c : ℝ) (hl : z.length ≤ f.length) :
    Trapz z (f.map (fun x => c * x)) = c * Trapz z f := by
  unfold Trapz
  rw [Finset.mul_sum]
  apply Finset.sum_congr rfl
  intro j hj
  rw [Finset.mem_range] at hj
  rw [getD_map (by omega), getD_map (by omega)]
  ring

theorem Trapz_pos {z f : List ℝ} (hz : Grid z) (hf : ∀ i, i < z.length → 0 < f.getD i 0) : 0 < Trapz z f := by
  unfold Trapz
  apply Finset.sum_pos
  · intro j hj
    rw [Finset.mem_range] at hj
    have h1 := hf j (by omega)
    have h2 := hf (j + 1) (by omega)
    have h3 := hz.step (show j < j + 1 by omega) (by omega)
    apply mul_pos <;> linarith
  · exact ⟨0, by rw [Finset.mem_range]; have := hz.two; omega⟩

theorem Trapz_exp_pos {z v : List ℝ} (hz : Grid z) (hl : z.length ≤ v.length) : 0 < Trapz z (v.map Real.exp) := by
  apply Trapz_pos hz
  intro i hi
  rw [getD_map (by omega)]
  exact Real.exp_pos _

theorem Trapz_exp_sub {z v : List ℝ} (hl : z.length ≤ v.length) (c : ℝ) :
    Trapz z (v.map (fun x => Real.exp (x - c))) = Real.exp (-c) * Trapz z (v.map Real.exp) := by
  rw [← Trapz_map_mul _ (by simpa using hl), List.map_map]
  congr 1
  apply List.map_congr_left
  intro x _
  simp only [Function.comp]
  rw [← Real.exp_add]
  congr 1; ring

theorem expSum_eq {v z : List ℝ} (lf : ℝ) (h1 : 1 ≤ z.length) (hl : z.length ≤ v.length) :
    expSum v z lf = .ok (Trapz z (v.map (fun x => Real.exp (x - lf)))) := by
  unfold expSum
  rw [at_getD (show 0 < v.length by omega)]
  simp only [Res.bind_ok]
  obtain ⟨s, e1, e2⟩ := Res.foldN_inv
    (f := fun k (s : ℝ × ℝ) => Res.at_ v k >>= fun vk => Res.at_ z k >>= fun zk => Res.at_ z (k - 1) >>= fun zp =>
      .ok (s.1 + (Real.exp (vk - lf) + s.2) / 2 * (zk - zp), Real.exp (vk - lf)))
    (P := fun k s => 1 ≤ k ∧ s.1 = ∑ j ∈ range (k - 1), ((v.map (fun x => Real.exp (x - lf))).getD j 0 +
        (v.map (fun x => Real.exp (x - lf))).getD (j + 1) 0) / 2 * (z.getD (j + 1) 0 - z.getD j 0) ∧
      s.2 = Real.exp (v.getD (k - 1) 0 - lf))
    (z.length - 1) 1 (0, Real.exp (v.getD 0 0 - lf)) (by simp) (by
      rintro k s hk1 hk2 ⟨-, h3, h4⟩
      rw [at_getD (show k < v.length by omega), at_getD (show k < z.length by omega),
        at_getD (show k - 1 < z.length by omega)]
      refine ⟨_, rfl, by omega, ?_, by simp⟩
      rw [h3, h4]
      obtain ⟨m, rfl⟩ : ∃ m, k = m + 1 := ⟨k - 1, by omega⟩
      simp only [Nat.add_sub_cancel]
      rw [Finset.sum_range_succ, getD_map (show m < v.length by omega), getD_map (show m + 1 < v.length by omega)]
      ring)
  rw [e1]
  simp only [Res.bind_ok, Res.ok.injEq]
  rw [e2.2.1]
  unfold Trapz
  rw [show 1 + (z.length - 1) - 1 = z.length - 1 by omega]

/-- The weight of sample `k` in the trapezoid integral. -/
noncomputable def weight (z : List ℝ) (k : Nat) : ℝ :=
  (z.getD (if k = z.length - 1 then k else k + 1) 0 - z.getD (k - 1) 0) / 2

theorem halfStep_eq {z : List ℝ} (hz : Grid z) {k : Nat} (hk : k < z.length) :
    halfStep z k = .ok (weight z k) ∧ 0 < weight z k := by
  have h2 := hz.two
  unfold halfStep weight
  by_cases h0 : k = 0
  · subst h0
    rw [if_pos rfl, if_neg (by omega), at_getD (show 0 + 1 < z.length by omega), at_getD (show 0 < z.length by omega)]
    have := hz.step (show 0 < 0 + 1 by omega) (by omega)
    refine ⟨?_, by simp only [Nat.zero_sub]; linarith⟩
    simp only [Res.bind_ok, Res.ok.injEq, Nat.zero_sub]; ring
  · rw [if_neg h0]
    by_cases h1 : k = z.length - 1
    · rw [if_pos h1, if_pos h1, at_getD (show k < z.length by omega), at_getD (show k - 1 < z.length by omega)]
      have := hz.step (show k - 1 < k by omega) (by omega)
      refine ⟨?_, by linarith⟩
      simp only [Res.bind_ok, Res.ok.injEq]; ring
    · rw [if_neg h1, if_neg h1, at_getD (show k + 1 < z.length by omega), at_getD (show k - 1 < z.length by omega)]
      have := hz.step (show k - 1 < k + 1 by omega) (by omega)
      refine ⟨?_, by linarith⟩
      simp only [Res.bind_ok, Res.ok.injEq]; ring

theorem logR_pos {x : ℝ} (h : 0 < x) : logR x = .ok (Real.log x) := by unfold logR; rw [if_pos h]

/-- What the first loop computes: an upper bound of all `v k + log (weight k)`, attained unless it is `-DBL_MAX`. -/
theorem logFactor_spec {v z : List ℝ} (hz : Grid z) (hl : z.length ≤ v.length) :
    ∃ lf, logFactor v z = .ok lf ∧ -dblMax ≤ lf ∧
      (∀ k, k < z.length → v.getD k 0 + Real.log (weight z k) ≤ lf) ∧
      (lf = -dblMax ∨ ∃ k, k < z.length ∧ lf = v.getD k 0 + Real.log (weight z k)) := by
  unfold logFactor
  obtain ⟨lf, e1, e2⟩ := Res.foldN_inv
    (f := fun k f => halfStep z k >>= fun st => logR st >>= fun ls => Res.at_ v k >>= fun vk =>
      .ok (open Classical in if f < vk + ls then vk + ls else f))
    (P := fun n lf => -dblMax ≤ lf ∧ (∀ k, k < n → v.getD k 0 + Real.log (weight z k) ≤ lf) ∧
      (lf = -dblMax ∨ ∃ k, k < n ∧ lf = v.getD k 0 + Real.log (weight z k)))
    z.length 0 (-dblMax) ⟨le_refl _, by simp, Or.inl rfl⟩ (by
      rintro k f - hk ⟨h1, h2, h3⟩
      rw [Nat.zero_add] at hk
      obtain ⟨h4, h5⟩ := halfStep_eq hz hk
      rw [h4, Res.bind_ok, logR_pos h5, Res.bind_ok, at_getD (show k < v.length by omega), Res.bind_ok]
      by_cases h : f < v.getD k 0 + Real.log (weight z k)
      · rw [if_pos h]
        refine ⟨_, rfl, by linarith, ?_, Or.inr ⟨k, by omega, rfl⟩⟩
        intro j hj
        rcases Nat.lt_or_eq_of_le (Nat.le_of_lt_succ hj) with h6 | h6
        · have := h2 j h6; linarith
        · rw [h6]
      · rw [if_neg h]
        refine ⟨_, rfl, h1, ?_, ?_⟩
        · intro j hj
          rcases Nat.lt_or_eq_of_le (Nat.le_of_lt_succ hj) with h6 | h6
          · exact h2 j h6
          · rw [h6]; exact not_lt.1 h
        · rcases h3 with h3 | ⟨j, hj, h3⟩
          · exact Or.inl h3
          · exact Or.inr ⟨j, by omega, h3⟩)
  rw [Nat.zero_add] at e2
  exact ⟨lf, e1, e2⟩

/-- The trapezoid integral as a weighted sum of the samples. -/
theorem Trapz_eq_weights {z f : List ℝ} (hz : Grid z) :
    Trapz z f = ∑ k ∈ range z.length, weight z k * f.getD k 0 := by
  have key : ∀ (Z F : ℕ → ℝ) (m : ℕ),
      ∑ j ∈ range (m + 1), (F j + F (j + 1)) / 2 * (Z (j + 1) - Z j) =
      ∑ k ∈ range (m + 1), (Z (k + 1) - Z (k - 1)) / 2 * F k + (Z (m + 1) - Z m) / 2 * F (m + 1) := by
    intro Z F m
    induction m with
    | zero => simp; ring
    | succ m ih =>
      rw [Finset.sum_range_succ, ih, Finset.sum_range_succ (n := m + 1)]
      simp only [Nat.add_sub_cancel]
      ring
  obtain ⟨m, hm⟩ : ∃ m, z.length = m + 2 := ⟨z.length - 2, by have := hz.two; omega⟩
  unfold Trapz weight
  rw [hm, show m + 2 - 1 = m + 1 by omega, key (fun j => z.getD j 0) (fun j => f.getD j 0) m,
    Finset.sum_range_succ (n := m + 1)]
  congr 1
  · apply Finset.sum_congr rfl
    intro k hk
    rw [Finset.mem_range] at hk
    rw [if_neg (by omega)]
  · rw [if_pos rfl]
    simp

theorem logSumExp_eq {v z : List ℝ} (hz : Grid z) (hl : z.length ≤ v.length) :
    logSumExp v z = .ok (Real.log (Trapz z (v.map Real.exp))) := by
  have h2 := hz.two
  obtain ⟨lf, h3, -⟩ := logFactor_spec hz hl
  have hp := Trapz_exp_pos hz hl
  unfold logSumExp
  rw [if_neg (by omega), h3]
  simp only [Res.bind_ok]
  rw [expSum_eq lf (by omega) hl, Trapz_exp_sub hl]
  simp only [Res.bind_ok]
  have hp' : 0 < Real.exp (-lf) * Trapz z (v.map Real.exp) := mul_pos (Real.exp_pos _) hp
  rw [if_neg (ne_of_gt hp'), logR_pos hp']
  simp only [Res.bind_ok, Res.ok.injEq]
  rw [Real.log_mul (Real.exp_ne_zero _) (ne_of_gt hp), Real.log_exp]
  ring

end Pdfz
end Amazed
