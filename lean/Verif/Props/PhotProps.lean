import Mathlib.Tactic.Ring
import Mathlib.Tactic.FieldSimp
import Mathlib.Tactic.Linarith
import Mathlib.Tactic.Positivity
import Mathlib.Algebra.BigOperators.Group.Finset.Basic
import Mathlib.Algebra.BigOperators.Intervals
import Mathlib.Algebra.Order.BigOperators.Group.Finset
import Verif.Model.Phot
import Verif.Props.LineCatProps

set_option linter.unusedSectionVars false
set_option linter.unusedVariables false

/-! # C89: photometric bands -/

namespace Amazed
namespace Phot

variable {K : Type} [Field K] [LinearOrder K] [IsStrictOrderedRing K]

open Finset

/-! ## Specification -/

/-- Integral over the frequency `c / λ`, by trapezes, of `y(λ) λ` given at the wavelengths of `lambda`. -/
def integral (c : K) (lambda : List K) (y : Nat → K) : K :=
  ∑ k ∈ range (lambda.length - 1), (y (k + 1) * lambda.getD (k + 1) 0 + y k * lambda.getD k 0) / 2 * (c / lambda.getD k 0 - c / lambda.getD (k + 1) 0)

/-- Flux per unit of frequency at sample `k` of a flux per unit of wavelength. -/
def fnu (c : K) (lambda flux : List K) (k : Nat) : K := flux.getD k 0 * lambda.getD k 0 ^ 2 / c

/-! ## Lemmas -/

theorem getD_of {l : List K} {k : Nat} (h : k < l.length) : l.getD k 0 = l[k] := by
  rw [List.getD_eq_getElem?_getD, List.getElem?_eq_getElem h]; rfl

theorem at_getD {l : List K} {k : Nat} (h : k < l.length) : Res.at_ l k = .ok (l.getD k 0) := by
  rw [Res.at_of_lt h, getD_of h]

theorem trapezes_eq (c : K) (y lambda : List K) (h : y.length = lambda.length) (h0 : ∀ l ∈ lambda, l ≠ 0) :
    trapezes y lambda (lambda.map fun l => c / l) = .ok (integral c lambda fun k => y.getD k 0) := by
  unfold trapezes
  obtain ⟨s, h1, h2⟩ := Res.foldN_inv (f := trapeze y lambda (lambda.map fun l => c / l)) (fun n s => s =
      ∑ k ∈ range (n - 1), (y.getD (k + 1) 0 * lambda.getD (k + 1) 0 + y.getD k 0 * lambda.getD k 0) / 2 * (c / lambda.getD k 0 - c / lambda.getD (k + 1) 0))
      (y.length - 1) 1 0 (by simp) (by
    intro i s hi1 hi2 hs
    obtain ⟨j, rfl⟩ : ∃ j, i = j + 1 := ⟨i - 1, by omega⟩
    have ey1 := at_getD (l := y) (k := j + 1) (by omega)
    have ey0 := at_getD (l := y) (k := j) (by omega)
    have el1 := at_getD (l := lambda) (k := j + 1) (by omega)
    have el0 := at_getD (l := lambda) (k := j) (by omega)
    have ef : ∀ k, k < lambda.length → Res.at_ (lambda.map fun l => c / l) k = .ok (c / lambda.getD k 0) := by
      intro k hk
      rw [Res.at_of_lt (by rw [List.length_map]; exact hk), getD_of hk, List.getElem_map]
    unfold trapeze
    rw [show j + 1 - 1 = j by omega, ey1, Res.bind_ok, ey0, Res.bind_ok, el1, Res.bind_ok, el0, Res.bind_ok, ef (j + 1) (by omega), Res.bind_ok, ef j (by omega), Res.bind_ok]
    refine ⟨_, rfl, ?_⟩
    rw [hs, show j + 1 - 1 = j by omega, show j + 1 + 1 - 1 = j + 1 by omega, sum_range_succ])
  rw [h1, h2]
  unfold integral
  rw [show 1 + (y.length - 1) - 1 = lambda.length - 1 by omega]

theorem new_ok (c : K) (trans lambda : List K) (h : trans.length = lambda.length) (hn : lambda ≠ []) (h0 : ∀ l ∈ lambda, l ≠ 0) :
    ∃ m ∈ lambda, (∀ l ∈ lambda, m ≤ l) ∧
      Band.new c trans lambda = .ok ⟨trans, lambda, lambda.map (fun l => c / l), integral c lambda fun k => trans.getD k 0, m⟩ := by
  obtain ⟨x, l, rfl⟩ := List.exists_cons_of_ne_nil hn
  have hm : ∀ (l : List K) (x : K), (l.foldl min x) ∈ x :: l ∧ ∀ y ∈ x :: l, l.foldl min x ≤ y := by
    intro l
    induction l with
    | nil => intro x; simp
    | cons z l ih =>
      intro x
      obtain ⟨g1, g2⟩ := ih (min x z)
      rw [List.foldl_cons]
      refine ⟨?_, ?_⟩
      · rcases List.mem_cons.1 g1 with e | e
        · rw [e]
          rcases min_choice x z with e' | e' <;> rw [e'] <;> simp
        · exact List.mem_cons_of_mem _ (List.mem_cons_of_mem _ e)
      · intro y hy
        rcases List.mem_cons.1 hy with rfl | hy
        · exact le_trans (g2 _ List.mem_cons_self) (min_le_left _ _)
        · rcases List.mem_cons.1 hy with rfl | hy
          · exact le_trans (g2 _ List.mem_cons_self) (min_le_right _ _)
          · exact g2 _ (List.mem_cons_of_mem _ hy)
  refine ⟨l.foldl min x, (hm l x).1, (hm l x).2, ?_⟩
  unfold Band.new
  rw [if_neg (by rw [not_not]; exact h)]
  unfold minElement
  simp only [Res.bind_ok]
  rw [if_neg, trapezes_eq c _ _ h h0, Res.bind_ok]
  rw [List.any_eq_true]
  rintro ⟨y, hy, e⟩
  exact h0 y hy (of_decide_eq_true e)

/-! ## Theorems -/

/-- **C89, construction.** A band needs as many transmissions as wavelengths, an error is raised else. With at least one wavelength and no null wavelength the band holds them, their smallest and the
integral of its transmission; without any wavelength the construction is undefined. -/
theorem C89_construction (c : K) (trans lambda : List K) :
    (trans.length ≠ lambda.length → Band.new c trans lambda = .throw .INTERNAL_ERROR) ∧
    (trans = [] → lambda = [] → Band.new c trans lambda = .ub) ∧
    (trans.length = lambda.length → lambda ≠ [] → (∀ l ∈ lambda, l ≠ 0) → ∃ b, Band.new c trans lambda = .ok b ∧ b.trans = trans ∧ b.lambda = lambda ∧
      b.minLambda ∈ lambda ∧ (∀ l ∈ lambda, b.minLambda ≤ l) ∧ b.tsum = integral c lambda fun k => trans.getD k 0) := by
  refine ⟨?_, ?_, ?_⟩
  · intro h; unfold Band.new; rw [if_pos h]
  · rintro rfl rfl; rfl
  · intro h hn h0
    obtain ⟨m, h1, h2, h3⟩ := new_ok c trans lambda h hn h0
    exact ⟨_, h3, rfl, rfl, h1, h2, rfl⟩

/-- **C89, integration.** The flux of a spectrum in a band is the integral of its flux per unit of frequency weighted by transmission and wavelength (photon counting), over that of the transmission.
An error is raised for a spectrum of another size. -/
theorem C89_integration (c : K) (trans lambda flux : List K) (b : Band K) (hb : Band.new c trans lambda = .ok b) (h0 : ∀ l ∈ lambda, l ≠ 0) (hl : lambda ≠ []) :
    (flux.length ≠ trans.length → b.integrate c flux = .throw .INTERNAL_ERROR) ∧
    (flux.length = trans.length → b.tsum ≠ 0 → b.integrate c flux =
      .ok (integral c lambda (fun k => fnu c lambda flux k * trans.getD k 0) / integral c lambda fun k => trans.getD k 0)) ∧
    (flux.length = trans.length → b.tsum = 0 → b.integrate c flux = .ub) := by
  have hlen : trans.length = lambda.length := by
    by_contra hc
    unfold Band.new at hb
    rw [if_pos hc] at hb; cases hb
  obtain ⟨m, h1, h2, h3⟩ := new_ok c trans lambda hlen hl h0
  rw [h3] at hb
  cases hb
  have key : flux.length = trans.length → Band.integrate c ⟨trans, lambda, lambda.map (fun l => c / l), integral c lambda fun k => trans.getD k 0, m⟩ flux =
      if (integral c lambda fun k => trans.getD k 0) = 0 then .ub
      else .ok (integral c lambda (fun k => fnu c lambda flux k * trans.getD k 0) / integral c lambda fun k => trans.getD k 0) := by
    intro hf
    unfold Band.integrate
    simp only
    rw [if_neg (by rw [not_not]; exact hf), if_neg, trapezes_eq c _ _ (by simp only [List.length_zipWith]; omega) h0, Res.bind_ok]
    · congr 3
      unfold integral
      refine Finset.sum_congr rfl ?_
      intro k hk
      rw [Finset.mem_range] at hk
      have e : ∀ j, j < lambda.length → (List.zipWith (fun f t => f * t) (List.zipWith (fun f l => f * l * l / c) flux lambda) trans).getD j 0 =
          fnu c lambda flux j * trans.getD j 0 := by
        intro j hj
        rw [getD_of (by simp only [List.length_zipWith]; omega), List.getElem_zipWith, List.getElem_zipWith]
        unfold fnu
        rw [getD_of (by omega), getD_of (by omega), getD_of (by omega)]
        ring
      beta_reduce
      rw [e k (by omega), e (k + 1) (by omega)]
    · intro hc
      rw [hc] at hf
      exact hl (List.eq_nil_of_length_eq_zero (by rw [← hlen, ← hf]; rfl))
  refine ⟨?_, ?_, ?_⟩
  · intro hf
    unfold Band.integrate
    rw [if_pos hf]
  · intro hf ht
    rw [key hf, if_neg ht]
  · intro hf ht
    rw [key hf, if_pos ht]

/-- **C89, linearity.** The flux in a band is linear in the spectrum. -/
theorem C89_linear (c : K) (trans lambda : List K) (b : Band K) (hb : Band.new c trans lambda = .ok b) (h0 : ∀ l ∈ lambda, l ≠ 0) (hl : lambda ≠ []) (ht : b.tsum ≠ 0)
    (f g r : List K) (a1 a2 x y : K) (hr : r.length = f.length) (hrd : ∀ k, r.getD k 0 = a1 * f.getD k 0 + a2 * g.getD k 0)
    (hf : b.integrate c f = .ok x) (hg : b.integrate c g = .ok y) : b.integrate c r = .ok (a1 * x + a2 * y) := by
  obtain ⟨f1, f2, _⟩ := C89_integration c trans lambda f b hb h0 hl
  obtain ⟨g1, g2, _⟩ := C89_integration c trans lambda g b hb h0 hl
  obtain ⟨r1, r2, _⟩ := C89_integration c trans lambda r b hb h0 hl
  have hfl : f.length = trans.length := by by_contra hc; rw [f1 hc] at hf; cases hf
  have hgl : g.length = trans.length := by by_contra hc; rw [g1 hc] at hg; cases hg
  rw [f2 hfl ht] at hf
  rw [g2 hgl ht] at hg
  cases hf; cases hg
  rw [r2 (by omega) ht]
  congr 1
  rw [mul_div_assoc', mul_div_assoc', ← add_div]
  congr 1
  unfold integral
  rw [Finset.mul_sum, Finset.mul_sum, ← Finset.sum_add_distrib]
  refine Finset.sum_congr rfl ?_
  intro k _
  unfold fnu
  beta_reduce
  rw [hrd, hrd]
  ring

/-- **C89, flat spectrum.** A spectrum with the same flux `F` per unit of frequency everywhere has the flux `F` in every band whose transmission integral is not null. -/
theorem C89_flat (c F : K) (hc : c ≠ 0) (trans lambda flux : List K) (b : Band K) (hb : Band.new c trans lambda = .ok b) (h0 : ∀ l ∈ lambda, l ≠ 0) (hl : lambda ≠ []) (ht : b.tsum ≠ 0)
    (hf : flux = lambda.map fun l => F * c / l ^ 2) : b.integrate c flux = .ok F := by
  have hlen : trans.length = lambda.length := by
    by_contra hcc
    unfold Band.new at hb
    rw [if_pos hcc] at hb; cases hb
  have hfl : flux.length = trans.length := by rw [hf, List.length_map, hlen]
  rw [(C89_integration c trans lambda flux b hb h0 hl).2.1 hfl ht]
  obtain ⟨m, _, _, h3⟩ := new_ok c trans lambda hlen hl h0
  have htt : (integral c lambda fun k => trans.getD k 0) ≠ 0 := by rw [h3] at hb; cases hb; exact ht
  congr 1
  rw [div_eq_iff htt]
  unfold integral
  rw [Finset.mul_sum]
  refine Finset.sum_congr rfl ?_
  intro k hk
  rw [Finset.mem_range] at hk
  have e : ∀ j, j < lambda.length → fnu c lambda flux j = F := by
    intro j hj
    have hj0 : lambda[j] ≠ 0 := h0 _ (List.getElem_mem hj)
    unfold fnu
    subst hf
    rw [getD_of (by omega), getD_of hj, List.getElem_map]
    field_simp
  beta_reduce
  rw [e k (by omega), e (k + 1) (by omega)]
  ring

theorem integral_mono (c : K) (hc : 0 < c) (lambda : List K) (hp : ∀ l ∈ lambda, 0 < l) (hs : lambda.Pairwise (· < ·)) (y y' : Nat → K) (hy : ∀ k, k < lambda.length → y k ≤ y' k) :
    integral c lambda y ≤ integral c lambda y' := by
  unfold integral
  refine Finset.sum_le_sum ?_
  intro k hk
  rw [Finset.mem_range] at hk
  have k0 : k < lambda.length := by omega
  have k1 : k + 1 < lambda.length := by omega
  rw [getD_of k0, getD_of k1]
  have p0 := hp _ (List.getElem_mem k0)
  have p1 := hp _ (List.getElem_mem k1)
  have lt := List.pairwise_iff_getElem.1 hs k (k + 1) k0 k1 (Nat.lt_succ_self k)
  have hd : 0 ≤ c / lambda[k] - c / lambda[k + 1] := by
    rw [sub_nonneg]
    exact div_le_div_of_nonneg_left hc.le p0 lt.le
  refine mul_le_mul_of_nonneg_right ?_ hd
  have := mul_le_mul_of_nonneg_right (hy _ k0) p0.le
  have := mul_le_mul_of_nonneg_right (hy _ k1) p1.le
  linarith

/-- **C89, mean.** For a band of increasing positive wavelengths and non negative transmissions, some pair of which is not null: the flux is defined and is between the smallest and the greatest flux
per unit of frequency of the samples. -/
theorem C89_mean (c : K) (hc : 0 < c) (trans lambda flux : List K) (hlen : trans.length = lambda.length) (hp : ∀ l ∈ lambda, 0 < l) (hs : lambda.Pairwise (· < ·)) (ht : ∀ t ∈ trans, 0 ≤ t)
    (h2 : 2 ≤ lambda.length) (hpos : ∃ t ∈ trans, 0 < t) (hfl : flux.length = trans.length) (lo hi : K)
    (hlo : ∀ k, k < flux.length → lo ≤ fnu c lambda flux k) (hhi : ∀ k, k < flux.length → fnu c lambda flux k ≤ hi) :
    ∃ b x, Band.new c trans lambda = .ok b ∧ 0 < b.tsum ∧ b.integrate c flux = .ok x ∧ lo ≤ x ∧ x ≤ hi := by
  have h0 : ∀ l ∈ lambda, l ≠ 0 := fun l h => ne_of_gt (hp l h)
  have hn : lambda ≠ [] := by rintro rfl; simp at h2
  have td : ∀ k, 0 ≤ trans.getD k 0 := by
    intro k
    by_cases hk : k < trans.length
    · rw [getD_of hk]; exact ht _ (List.getElem_mem hk)
    · rw [List.getD_eq_getElem?_getD, List.getElem?_eq_none (by omega)]; exact le_refl _
  obtain ⟨m, _, _, hb⟩ := new_ok c trans lambda hlen hn h0
  have hT : 0 < integral c lambda fun k => trans.getD k 0 := by
    have term : ∀ k, k + 1 < lambda.length → 0 < c / lambda.getD k 0 - c / lambda.getD (k + 1) 0 := by
      intro k k1
      have k0 : k < lambda.length := by omega
      rw [getD_of k0, getD_of k1, sub_pos]
      have lt := List.pairwise_iff_getElem.1 hs k (k + 1) k0 k1 (Nat.lt_succ_self k)
      exact div_lt_div_of_pos_left hc (hp _ (List.getElem_mem k0)) lt
    have ld : ∀ k, 0 ≤ lambda.getD k 0 := by
      intro k
      by_cases hk : k < lambda.length
      · rw [getD_of hk]; exact (hp _ (List.getElem_mem hk)).le
      · rw [List.getD_eq_getElem?_getD, List.getElem?_eq_none (by omega)]; exact le_refl _
    unfold integral
    refine Finset.sum_pos' ?_ ?_
    · intro k hk
      rw [Finset.mem_range] at hk
      refine mul_nonneg (div_nonneg (add_nonneg (mul_nonneg (td _) (ld _)) (mul_nonneg (td _) (ld _))) (by norm_num)) (term k (by omega)).le
    · obtain ⟨t, htm, htp⟩ := hpos
      obtain ⟨j, hj, rfl⟩ := List.mem_iff_getElem.1 htm
      have hj' : j < lambda.length := by omega
      have pj : 0 < trans.getD j 0 * lambda.getD j 0 := by
        rw [getD_of hj, getD_of hj']
        exact mul_pos htp (hp _ (List.getElem_mem hj'))
      by_cases hlast : j + 1 < lambda.length
      · refine ⟨j, Finset.mem_range.2 (by omega), mul_pos (div_pos (add_pos_of_nonneg_of_pos (mul_nonneg (td _) (ld _)) pj) (by norm_num)) (term j hlast)⟩
      · obtain ⟨i, rfl⟩ : ∃ i, j = i + 1 := ⟨j - 1, by omega⟩
        refine ⟨i, Finset.mem_range.2 (by omega), mul_pos (div_pos (add_pos_of_pos_of_nonneg pj (mul_nonneg (td _) (ld _))) (by norm_num)) (term i hj')⟩
  have scale : ∀ a : K, integral c lambda (fun k => a * trans.getD k 0) = a * integral c lambda fun k => trans.getD k 0 := by
    intro a
    unfold integral
    rw [Finset.mul_sum]
    refine Finset.sum_congr rfl ?_
    intro k _
    ring
  refine ⟨_, _, hb, hT, (C89_integration c trans lambda flux _ hb h0 hn).2.1 hfl (ne_of_gt hT), ?_, ?_⟩
  · rw [le_div_iff₀ hT, ← scale]
    exact integral_mono c hc lambda hp hs _ _ fun k hk => mul_le_mul_of_nonneg_right (hlo k (by omega)) (td k)
  · rw [div_le_iff₀ hT, ← scale]
    exact integral_mono c hc lambda hp hs _ _ fun k hk => mul_le_mul_of_nonneg_right (hhi k (by omega)) (td k)

/-- A band of one sample has a null transmission integral: its fluxes are not defined (0 / 0), whatever the spectrum. -/
theorem C89_one_sample (c t l f : K) (hl : l ≠ 0) : ∃ b, Band.new c [t] [l] = .ok b ∧ b.tsum = 0 ∧ b.integrate c [f] = .ub := by
  have h0 : ∀ x ∈ [l], x ≠ 0 := by simpa using hl
  obtain ⟨m, _, _, hb⟩ := new_ok c [t] [l] rfl (by simp) h0
  have e : (integral c [l] fun k => [t].getD k 0) = 0 := by simp [integral]
  refine ⟨_, hb, e, ?_⟩
  exact (C89_integration c [t] [l] [f] _ hb h0 (by simp)).2.2 rfl e

/-- **C89, catalogue.** A band added under a new name is found there; a name already used keeps its first band; the other names are not changed; the names stay sorted without repetition. -/
theorem C89_catalogue (cat : Cat K) (hk : LineCat.Keyed cat) (name : String) (b : Band K) :
    (LineCat.mapFind name cat = none → LineCat.mapFind name (cat.add name b) = some b) ∧
    (∀ b', LineCat.mapFind name cat = some b' → LineCat.mapFind name (cat.add name b) = some b') ∧
    (∀ q, q ≠ name → LineCat.mapFind q (cat.add name b) = LineCat.mapFind q cat) ∧ (cat.add name b).names.Pairwise (· < ·) := by
  have keyed : LineCat.Keyed (cat.add name b) := by
    unfold Cat.add
    split
    · exact LineCat.mapPut_keyed _ _ _ hk
    · exact hk
  refine ⟨?_, ?_, ?_, ?_⟩
  · intro h
    unfold Cat.add
    rw [h]
    simp only
    rw [LineCat.mapFind_put, if_pos rfl]
  · intro b' h
    unfold Cat.add
    rw [h]
    exact h
  · intro q hq
    unfold Cat.add
    split
    · rw [LineCat.mapFind_put, if_neg hq]
    · rfl
  · unfold Cat.names
    rw [List.pairwise_map]
    exact keyed

/-- Two samples, a flat spectrum. -/
example : ∃ b, Band.new (c := (12 : ℚ)) [1, 2] [2, 3] = .ok b ∧ b.tsum = 8 ∧ b.integrate 12 [5 * 12 / 4, 5 * 12 / 9] = .ok 5 :=
  ⟨⟨[1, 2], [2, 3], [6, 4], 8, 2⟩, by decide +kernel, by decide +kernel, by decide +kernel⟩

end Phot
end Amazed
