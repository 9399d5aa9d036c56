import Verif.Model.PhotFit
import Verif.Props.TplComputeProps
import Verif.Props.PhotFitProps

set_option linter.unusedVariables false
set_option linter.unusedSectionVars false

/-! # C169: the template on the photometric bands -/

namespace Amazed
namespace PhotFit

/-- Specification: the template covers a band brought to rest: it has two wavelengths at least and all of them are between the ends of the template. -/
def Covers (tx : List ℝ) (z : ℝ) (lambda : List ℝ) : Prop := 2 ≤ lambda.length ∧ ∀ l ∈ lambda, TplComb.Covered tx (l / (1 + z))

section
variable {tx ty te : List ℝ} {z : ℝ}

theorem rebinBand_covers (htx : tx.Pairwise (· < ·)) (hty : ty.length = tx.length) (hte : te.length = tx.length) (hz : -1 < z) {lambda : List ℝ}
    (hl : lambda.Pairwise (· < ·)) (hc : Covers tx z lambda) :
    ∃ cells, rebinBand (Rebin.linear .no tx ty te) z lambda = .ok (lambda.map (· / (1 + z)), cells) ∧ cells.length = lambda.length ∧
      ∀ (i : Nat) (l : ℝ) (c : Rebin.Cell ℝ), lambda[i]? = some l → cells[i]? = some c → OnPolyline tx ty (l / (1 + z)) c.flux := by
  have hz' : 0 < 1 + z := by linarith
  obtain ⟨h2, hcov⟩ := hc
  unfold rebinBand
  rw [if_neg hz'.ne']
  obtain ⟨a, ha, hs⟩ := TplModel.shift_back lambda hz'
  rw [ha, Res.bind_ok, hs]
  have hlen : (lambda.map (· / (1 + z))).length = lambda.length := List.length_map _
  have hr : SAxis.lambdaRange (lambda.map (· / (1 + z))) = ⟨lambda[0] / (1 + z), lambda[lambda.length - 1] / (1 + z)⟩ := by
    unfold SAxis.lambdaRange
    rw [dif_neg (by rw [hlen]; omega)]
    simp
  rw [hr]
  obtain ⟨hne, b0, b1⟩ := TplModel.covered_ends (hcov _ (List.getElem_mem (l := lambda) (n := 0) (by omega)))
  obtain ⟨_, e0, e1⟩ := TplModel.covered_ends (hcov _ (List.getElem_mem (l := lambda) (n := lambda.length - 1) (by omega)))
  have hlt : lambda[0] < lambda[lambda.length - 1] := List.pairwise_iff_getElem.1 hl 0 (lambda.length - 1) (by omega) (by omega) (by omega)
  have hlt' : lambda[0] / (1 + z) < lambda[lambda.length - 1] / (1 + z) := div_lt_div_of_pos_right hlt hz'
  have htx2 : 2 ≤ tx.length := by
    by_contra hc
    have e : tx.length - 1 = 0 := by omega
    simp only [e] at e1
    linarith
  have hxt : (lambda.map (· / (1 + z))).Pairwise (· ≤ ·) := by
    rw [List.pairwise_map]
    exact hl.imp fun hab => div_le_div_of_nonneg_right hab.le hz'.le
  obtain ⟨cells, c1, c2, c3⟩ := Rebin.C37_linear_partial .no tx ty te (lambda.map (· / (1 + z))) ⟨lambda[0] / (1 + z), lambda[lambda.length - 1] / (1 + z)⟩ htx hty hte hxt
    (by simp) hne b0 e1
  rw [c1, Res.bind_ok]
  have hmem : ∀ x ∈ lambda.map (· / (1 + z)), lambda[0] / (1 + z) ≤ x ∧ x ≤ lambda[lambda.length - 1] / (1 + z) := by
    intro x hx
    obtain ⟨l, hl', rfl⟩ := List.mem_map.1 hx
    obtain ⟨i, hi, rfl⟩ := List.getElem_of_mem hl'
    constructor
    · refine div_le_div_of_nonneg_right ?_ hz'.le
      rcases Nat.eq_zero_or_pos i with e | e
      · simp only [e]; exact le_rfl
      · exact (List.pairwise_iff_getElem.1 hl 0 i (by omega) hi e).le
    · refine div_le_div_of_nonneg_right ?_ hz'.le
      rcases Nat.eq_or_lt_of_le (Nat.le_sub_one_of_lt hi) with e | e
      · simp only [e]; exact le_rfl
      · exact (List.pairwise_iff_getElem.1 hl i (lambda.length - 1) hi (by omega) e).le
  have hcells : ∀ (i : Nat) (x : ℝ) (c : Rebin.Cell ℝ), (lambda.map (· / (1 + z)))[i]? = some x → cells[i]? = some c → c.mask = 1 ∧ OnPolyline tx ty x c.flux := by
    intro i x c hx hcc
    have hm := hmem x (List.mem_of_getElem? hx)
    have := (c3 i x c hx hcc).1 ((Rebin.C37_covered tx _ htx htx2 b0 e1 x).1 hm.1 hm.2)
    exact ⟨this.1, this.2.1⟩
  have hl1 : ((lambda.map (· / (1 + z))).filter (fun x => decide (lambda[0] / (1 + z) ≤ x ∧ x ≤ lambda[lambda.length - 1] / (1 + z)))).length = lambda.length := by
    rw [List.filter_eq_self.2 (fun x hx => by simpa using hmem x hx), hlen]
  have hl2 : (((lambda.map (· / (1 + z))).zip (cells.map (·.mask))).filter (fun p => decide (lambda[0] / (1 + z) ≤ p.1 ∧ p.1 ≤ lambda[lambda.length - 1] / (1 + z) ∧ p.2 ≠ 0))).length
      = lambda.length := by
    rw [List.filter_eq_self.2]
    · rw [List.length_zip, List.length_map, List.length_map, c2, List.length_map, Nat.min_self]
    · intro p hp
      obtain ⟨i, hi, rfl⟩ := List.getElem_of_mem hp
      rw [List.getElem_zip]
      rw [List.length_zip, List.length_map, List.length_map, c2, List.length_map, Nat.min_self] at hi
      have hx := hmem (lambda.map (· / (1 + z)))[i] (List.getElem_mem _)
      have hm := (hcells i _ (cells[i]'(by rw [c2, hlen]; exact hi)) (List.getElem?_eq_getElem (by rw [hlen]; exact hi)) (List.getElem?_eq_getElem _)).1
      have : (cells.map (·.mask))[i]'(by rw [List.length_map, c2, hlen]; exact hi) = 1 := by rw [List.getElem_map]; exact hm
      simp only [decide_eq_true_eq]
      refine ⟨hx.1, hx.2, ?_⟩
      rw [this]; simp
  have hn0 : (lambda.length : ℝ) ≠ 0 := by
    have : 0 < lambda.length := by omega
    exact_mod_cast this.ne'
  rw [SAxis.C36_overlapFraction _ _ _ (by rw [List.length_map (f := fun c : Rebin.Cell ℝ => c.mask), c2]), Res.bind_ok, hl1, hl2, div_self hn0, if_neg (lt_irrefl _)]
  refine ⟨cells, rfl, by rw [c2, hlen], fun i l c h1 h2 => ?_⟩
  exact (hcells i (l / (1 + z)) c (by rw [List.getElem?_map, h1]; rfl) h2).2

/-- **C169, bands.** With the linear resampling the template is resampled on a band exactly when it covers the band brought to rest; every wavelength of the band then has
the interpolated template. Otherwise the fit is refused with `INTERNAL_ERROR`: the error `OVERLAPFRACTION_NOTACCEPTABLE` of the code is never raised. -/
theorem C169_bands (htx : tx.Pairwise (· < ·)) (hne : tx ≠ []) (hty : ty.length = tx.length) (hte : te.length = tx.length) (hpos : ∀ x ∈ tx, 0 < x) (hz : -1 < z)
    {lambda : List ℝ} (hl : lambda.Pairwise (· < ·)) :
    (Covers tx z lambda → ∃ cells, rebinBand (Rebin.linear .no tx ty te) z lambda = .ok (lambda.map (· / (1 + z)), cells) ∧ cells.length = lambda.length ∧
      ∀ (i : Nat) (l : ℝ) (c : Rebin.Cell ℝ), lambda[i]? = some l → cells[i]? = some c → OnPolyline tx ty (l / (1 + z)) c.flux) ∧
    (¬ Covers tx z lambda → rebinBand (Rebin.linear .no tx ty te) z lambda = .throw .INTERNAL_ERROR) := by
  refine ⟨rebinBand_covers htx hty hte hz hl, fun hn => ?_⟩
  have hz' : 0 < 1 + z := by linarith
  have htl : 0 < tx.length := List.length_pos_iff.2 hne
  unfold rebinBand
  rw [if_neg hz'.ne']
  obtain ⟨a, ha, hs⟩ := TplModel.shift_back lambda hz'
  rw [ha, Res.bind_ok, hs]
  have hlen : (lambda.map (· / (1 + z))).length = lambda.length := List.length_map _
  have hrf : ∀ r : Range ℝ, (r.b < tx[0] ∨ tx[tx.length - 1] < r.e) → ∀ {β : Type} (k : List (Rebin.Cell ℝ) → Res β),
      (Rebin.linear .no tx ty te r (lambda.map (· / (1 + z))) >>= k) = .throw .INTERNAL_ERROR := by
    intro r hr β k
    rw [Rebin.C37_refuses .no tx ty te _ r htl hr]
    rfl
  apply hrf
  by_cases h2 : lambda.length < 2
  · have : SAxis.lambdaRange (lambda.map (· / (1 + z))) = ⟨0, 0⟩ := by unfold SAxis.lambdaRange; rw [dif_pos (by rw [hlen]; exact h2)]
    rw [this]
    exact .inl (hpos _ (List.getElem_mem _))
  · have hr : SAxis.lambdaRange (lambda.map (· / (1 + z))) = ⟨lambda[0] / (1 + z), lambda[lambda.length - 1] / (1 + z)⟩ := by
      unfold SAxis.lambdaRange
      rw [dif_neg (by rw [hlen]; exact h2)]
      simp
    rw [hr]
    by_contra hc
    push Not at hc
    refine hn ⟨by omega, fun l hl' => ?_⟩
    obtain ⟨i, hi, rfl⟩ := List.getElem_of_mem hl'
    refine ⟨tx[0], tx[tx.length - 1], by rw [List.head?_eq_getElem?, List.getElem?_eq_getElem htl], by rw [List.getLast?_eq_getElem?, List.getElem?_eq_getElem (by omega)], ?_, ?_⟩
    · refine le_trans hc.1 (div_le_div_of_nonneg_right ?_ hz'.le)
      rcases Nat.eq_zero_or_pos i with e | e
      · simp only [e]; exact le_rfl
      · exact (List.pairwise_iff_getElem.1 hl 0 i (by omega) hi e).le
    · refine le_trans (div_le_div_of_nonneg_right ?_ hz'.le) hc.2
      rcases Nat.eq_or_lt_of_le (Nat.le_sub_one_of_lt hi) with e | e
      · simp only [e]; exact le_rfl
      · exact (List.pairwise_iff_getElem.1 hl i (lambda.length - 1) hi (by omega) e).le

/-- A template on [1, 8] and a band of three wavelengths at redshift 1. -/
example : Covers [1, 2, 8] 1 [4, 6, 10] := by
  refine ⟨by simp, ?_⟩
  intro l hl
  simp only [List.mem_cons, List.not_mem_nil, or_false] at hl
  refine ⟨1, 8, rfl, rfl, ?_⟩
  rcases hl with rfl | rfl | rfl <;> norm_num

/-- The band is above the template. -/
example : ¬ Covers [1, 2, 8] 1 [14, 17] := by
  rintro ⟨-, h⟩
  obtain ⟨a, b, h1, h2, h3, h4⟩ := h 17 (by simp)
  cases h1; cases h2
  norm_num at h4

end

end PhotFit
end Amazed
