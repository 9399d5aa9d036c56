import Verif.Model.GaussFit
import Mathlib.Analysis.SpecialFunctions.ExpDeriv
import Mathlib.Analysis.Calculus.Deriv.Pow
import Mathlib.Analysis.Calculus.Deriv.Inv
import Mathlib.Tactic.Linarith
import Mathlib.Tactic.FieldSimp
import Mathlib.Tactic.Ring
import Mathlib.Tactic.Positivity
import Mathlib.Tactic.NormNum

/-!
# C153, C154: the Gaussian fit of a line
-/

set_option linter.unusedSectionVars false
set_option linter.unusedVariables false

namespace Amazed
namespace GaussFit

open Filter Topology

/-! ## C153: the derivatives -/

/-- The model of a line: a Gaussian and a polynomial of the distance to its centre; `par` is the amplitude, the centre, the width and the coefficients. -/
noncomputable def lineModel (order : Nat) (par : Nat → ℝ) (x : ℝ) : ℝ :=
  par 0 * Real.exp (-((x - par 1) / par 2) ^ 2) + ∑ k ∈ Finset.range (order + 1), par (3 + k) * (x - par 1) ^ k

theorem polyTerm_eq (par : Nat → ℝ) (d : ℝ) (o : Nat) : polyTerm par d o = ∑ k ∈ Finset.range (o + 1), par (3 + k) * d ^ k := by
  induction o with
  | zero => simp [polyTerm]
  | succ o ih => rw [polyTerm, ih, Finset.sum_range_succ _ (o + 1)]

theorem polyMu_eq (par : Nat → ℝ) (d : ℝ) (o : Nat) :
    polyMu par d o = ∑ k ∈ Finset.range (o + 1), par (3 + k) * (-((k : ℝ) * d ^ (k - 1))) := by
  induction o with
  | zero => simp [polyMu]
  | succ o ih =>
    rw [polyMu, ih, Finset.sum_range_succ _ (o + 1)]
    simp only [Nat.add_sub_cancel]
    ring

/-- **C153** The residual given to the solver is the model minus the flux: the error of the spectrum is not used. -/
theorem C153_residual (order : Nat) (par : Nat → ℝ) (x y : ℝ) (hc : par 2 ≠ 0) : gaussF order par x y = .ok (lineModel order par x - y) := by
  unfold gaussF lineModel
  simp only
  rw [if_neg hc, polyTerm_eq, div_one]
  congr 4
  field_simp

/-- **C153** The row of the Jacobian matrix given to the solver: its entries are the partial derivatives of the residual, at every point with a width which is
not null. -/
theorem C153_jacobian (order : Nat) (par : Nat → ℝ) (x y : ℝ) (hc : par 2 ≠ 0) :
    ∃ row, gaussDF order par x = .ok row ∧ row.length = order + 4 ∧
      ∀ (j : Nat) v, row[j]? = some v → ∃ g : ℝ → ℝ,
        (∀ᶠ t in 𝓝 (par j), gaussF order (Function.update par j t) x y = .ok (g t)) ∧ HasDerivAt g v (par j) := by
  unfold gaussDF
  simp only
  rw [if_neg hc]
  refine ⟨_, rfl, by simp, ?_⟩
  intro j v hv
  refine ⟨fun t => lineModel order (Function.update par j t) x - y, ?_, ?_⟩
  · by_cases hj : j = 2
    · subst hj
      filter_upwards [isOpen_ne.mem_nhds hc] with t ht
      exact C153_residual order _ x y (by simpa using ht)
    · refine Eventually.of_forall fun t => C153_residual order _ x y ?_
      rw [Function.update_of_ne (Ne.symm hj)]; exact hc
  · have hexp : Real.exp (-1 * (x - par 1) * (x - par 1) / (par 2 * par 2)) = Real.exp (-((x - par 1) / par 2) ^ 2) := by
      congr 1; field_simp
    by_cases h0 : j = 0
    · subst h0
      simp at hv
      subst hv
      have hf : (fun t => lineModel order (Function.update par 0 t) x - y) =
          fun t => t * Real.exp (-((x - par 1) / par 2) ^ 2) + (∑ k ∈ Finset.range (order + 1), par (3 + k) * (x - par 1) ^ k) - y := by
        funext t
        unfold lineModel
        simp [Function.update]
      rw [hf]
      have := (((hasDerivAt_id (par 0)).mul_const (Real.exp (-((x - par 1) / par 2) ^ 2))).add_const
        (∑ k ∈ Finset.range (order + 1), par (3 + k) * (x - par 1) ^ k)).sub_const y
      refine HasDerivAt.congr_deriv this ?_
      rw [one_mul, ← hexp]
      simp
    by_cases h1 : j = 1
    · subst h1
      simp only [List.cons_append, List.getElem?_cons_succ, List.getElem?_cons_zero, Option.some.injEq] at hv
      subst hv
      have hf : (fun t => lineModel order (Function.update par 1 t) x - y) =
          fun t => par 0 * Real.exp (-((x - t) / par 2) ^ 2) + (∑ k ∈ Finset.range (order + 1), par (3 + k) * (x - t) ^ k) - y := by
        funext t
        unfold lineModel
        have h : ∀ k, (3 + k = 1) = False := by intro k; simp; omega
        simp [Function.update, h]
      rw [hf]
      have hd : HasDerivAt (fun t : ℝ => x - t) (-1) (par 1) := by simpa using (hasDerivAt_id (par 1)).const_sub x
      have hg := ((((hd.div_const (par 2)).pow 2).neg).exp).const_mul (par 0)
      have hp : HasDerivAt (fun t => ∑ k ∈ Finset.range (order + 1), par (3 + k) * (x - t) ^ k)
          (∑ k ∈ Finset.range (order + 1), par (3 + k) * ((k : ℝ) * (x - par 1) ^ (k - 1) * (-1))) (par 1) := by
        apply HasDerivAt.fun_sum
        intro k _
        exact (hd.pow k).const_mul _
      have := (hg.add hp).sub_const y
      refine HasDerivAt.congr_deriv this ?_
      rw [polyMu_eq, hexp, div_one, div_one]
      congr 1
      · simp only [Pi.neg_apply, Pi.pow_apply]
        field_simp
        ring_nf
        field_simp
      · refine Finset.sum_congr rfl fun k _ => ?_
        ring
    by_cases h2 : j = 2
    · subst h2
      simp only [List.cons_append, List.getElem?_cons_succ, List.getElem?_cons_zero, Option.some.injEq] at hv
      subst hv
      have hf : (fun t => lineModel order (Function.update par 2 t) x - y) =
          fun t => par 0 * Real.exp (-((x - par 1) / t) ^ 2) + (∑ k ∈ Finset.range (order + 1), par (3 + k) * (x - par 1) ^ k) - y := by
        funext t
        unfold lineModel
        have h : ∀ k, (3 + k = 2) = False := by intro k; simp; omega
        simp [Function.update, h]
      rw [hf]
      have hd : HasDerivAt (fun t : ℝ => (x - par 1) / t) ((x - par 1) * (-(par 2 ^ 2)⁻¹)) (par 2) := by
        have := (hasDerivAt_inv hc).const_mul (x - par 1)
        simpa [div_eq_mul_inv] using this
      have := ((((hd.pow 2).neg).exp.const_mul (par 0)).add_const
        (∑ k ∈ Finset.range (order + 1), par (3 + k) * (x - par 1) ^ k)).sub_const y
      refine HasDerivAt.congr_deriv this ?_
      rw [hexp, div_one]
      simp only [Pi.neg_apply, Pi.pow_apply]
      field_simp
      ring_nf
      field_simp
    · obtain ⟨k, rfl⟩ : ∃ k, j = 3 + k := ⟨j - 3, by omega⟩
      rw [List.getElem?_append_right (by simp)] at hv
      simp only [List.length_cons, List.length_nil] at hv
      rw [show 3 + k - (0 + 1 + 1 + 1) = k by omega] at hv
      rw [List.getElem?_map, Option.map_eq_some_iff] at hv
      obtain ⟨k', hk', rfl⟩ := hv
      have hkl : k < order + 1 := by
        have := (List.getElem?_eq_some_iff.1 hk').1
        simpa using this
      rw [List.getElem?_range hkl] at hk'
      simp only [Option.some.injEq] at hk'
      subst hk'
      have hf : (fun t => lineModel order (Function.update par (3 + k) t) x - y) =
          fun t => par 0 * Real.exp (-((x - par 1) / par 2) ^ 2) +
            (∑ i ∈ Finset.range (order + 1), (if i = k then t else par (3 + i)) * (x - par 1) ^ i) - y := by
        funext t
        unfold lineModel
        have h0 : (0 = 3 + k) = False := by simp; omega
        have h1 : (1 = 3 + k) = False := by simp; omega
        have h2 : (2 = 3 + k) = False := by simp; omega
        simp [Function.update, h0, h1, h2]
      rw [hf]
      have hp : HasDerivAt (fun t => ∑ i ∈ Finset.range (order + 1), (if i = k then t else par (3 + i)) * (x - par 1) ^ i)
          (∑ i ∈ Finset.range (order + 1), (if i = k then 1 else 0) * (x - par 1) ^ i) (par (3 + k)) := by
        apply HasDerivAt.fun_sum
        intro i _
        by_cases hi : i = k
        · simp only [if_pos hi]
          exact (hasDerivAt_id _).mul_const _
        · simp only [if_neg hi, zero_mul]
          exact hasDerivAt_const _ _
      have := (hp.const_add (par 0 * Real.exp (-((x - par 1) / par 2) ^ 2))).sub_const y
      refine HasDerivAt.congr_deriv this ?_
      rw [div_one]
      simp only [ite_mul, one_mul, zero_mul]
      rw [Finset.sum_ite_eq' (Finset.range (order + 1)) k, if_pos (Finset.mem_range.2 hkl)]

/-- A point with a width: the hypotheses hold, and the residual is a number. -/
example : ∃ row : List ℝ, gaussDF 2 (fun i => if i = 2 then 3 else 1) 5 = .ok row ∧ row.length = 6 := by
  obtain ⟨row, h1, h2, _⟩ := C153_jacobian 2 (fun i => if i = 2 then 3 else 1) 5 0 (by norm_num)
  exact ⟨row, h1, h2⟩

/-- Meaning of the status of the solver: a change below the machine precision (28) is a success, like 0; the maximum number of iterations (-2) is "not converged"; all others are failures. -/
theorem C154_codes (status : Int) :
    (returnCode status = .success ↔ status = 0 ∨ status = 28) ∧ (returnCode status = .notConverged ↔ status = -2) ∧
    (returnCode status = .failTolerance ↔ status ≠ 0 ∧ status ≠ 28 ∧ status ≠ -2) := by
  unfold returnCode
  split_ifs <;> simp_all

end GaussFit
end Amazed
