import Verif.Model.ObjSolve
import Verif.Props.GridProps

/-!
# C155: the redshift grids of the solvers
-/

namespace Amazed
namespace ObjSolve

theorem eps_pos : 0 < eps := by unfold eps; norm_num

/-- **C155** Line measurement, linear sampling, with a step above 1e-8: the grid has one redshift per step on both sides of the reference redshift, which is exactly
in its middle, and it covers the half width that was asked for without exceeding it by one step. -/
theorem C155_linemeas_lin {samp : String} (hs : samp ≠ "log") {center half step : ℝ} (hstep : eps < step) (hh : 0 ≤ half) :
    ∃ (k : Nat) (g : List ℝ), lineMeasRanges samp center half step = .ok g ∧ half ≤ k * step ∧ k * step < half + step ∧ g.length = 2 * k + 1 ∧
      ∀ (j : Nat) (h : j < g.length), g[j] = center + ((j : ℝ) - k) * step := by
  have hp : 0 < step := lt_trans eps_pos hstep
  have hq : 0 ≤ half / step := div_nonneg hh hp.le
  obtain ⟨k, hk⟩ := Int.eq_ofNat_of_zero_le (Int.ceil_nonneg hq)
  have hk1 : half ≤ k * step := by
    have := Int.le_ceil (half / step)
    rw [hk, div_le_iff₀ hp] at this
    exact_mod_cast this
  have hk2 : k * step < half + step := by
    have := Int.ceil_lt_add_one (half / step)
    rw [hk] at this
    have h2 := mul_lt_mul_of_pos_right this hp
    rw [add_mul, div_mul_cancel₀ _ hp.ne', one_mul] at h2
    exact_mod_cast h2
  have hks : 0 ≤ (k : ℝ) * step := mul_nonneg (Nat.cast_nonneg _) hp.le
  unfold lineMeasRanges lineMeasSampling
  rw [if_neg hp.ne', if_neg hs, Res.bind_ok, hk]
  have hb : (samp == "log") = false := by simpa using hs
  unfold zgrid
  rw [hb, if_neg (by simp)]
  obtain ⟨v, h1, h2, h3, h4, h5, h6⟩ := C05_spread_eps_forward (⟨center - ((k : ℤ) : ℝ) * step, center + ((k : ℤ) : ℝ) * step⟩ : Range ℝ) step eps hp eps_pos.le hstep
    (by simp only [Int.cast_natCast]; linarith)
  simp only [Int.cast_natCast] at h1 h3 h4 h5 h6
  have hlen : v.length = 2 * k + 1 := by
    have hne : v ≠ [] := by intro h; rw [h] at h4; simp at h4
    have hlow : 2 * k < v.length := by
      by_contra hc
      have hc : (v.length : ℝ) ≤ 2 * k := by exact_mod_cast not_lt.1 hc
      have := mul_le_mul_of_nonneg_right hc hp.le
      have he := eps_pos
      linarith
    by_contra hc
    have hl : 2 * k + 1 < v.length := by omega
    have e1 := h5 (2 * k) (by omega)
    have e2 := h5 (2 * k + 1) hl
    have hlt := List.pairwise_iff_getElem.1 h2 (2 * k) (2 * k + 1) (by omega) hl (by omega)
    rw [e1, e2] at hlt
    push_cast at hlt
    rw [min_eq_right (by nlinarith), min_eq_right (by nlinarith)] at hlt
    exact lt_irrefl _ hlt
  refine ⟨k, v, by simpa using h1, hk1, hk2, hlen, fun j h => ?_⟩
  rw [h5 j h, min_eq_left]
  · ring
  · have : (j : ℝ) ≤ 2 * k := by
      have : j ≤ 2 * k := by omega
      exact_mod_cast this
    have := mul_le_mul_of_nonneg_right this hp.le
    linarith

/-- **C155** Line measurement, logarithmic sampling: the same in the logarithm of `1 + z`. -/
theorem C155_linemeas_log {center half step : ℝ} (hc : -1 < center) (hstep : eps < step * (1 + center)) (hh : 0 ≤ half) :
    ∃ (k : Nat) (g : List ℝ), lineMeasRanges "log" center half step = .ok g ∧ half ≤ k * step ∧ k * step < half + step ∧ g.length = 2 * k + 1 ∧
      ∀ (j : Nat) (h : j < g.length), 1 + g[j] = (1 + center) * Real.exp (((j : ℝ) - k) * step) := by
  have h1c : 0 < 1 + center := by linarith
  have hp : 0 < step := by
    by_contra h
    have := mul_nonpos_of_nonpos_of_nonneg (not_lt.1 h) h1c.le
    linarith [eps_pos]
  have hq : 0 ≤ half / step := div_nonneg hh hp.le
  obtain ⟨k, hk⟩ := Int.eq_ofNat_of_zero_le (Int.ceil_nonneg hq)
  have hk1 : half ≤ k * step := by
    have := Int.le_ceil (half / step)
    rw [hk, div_le_iff₀ hp] at this
    exact_mod_cast this
  have hk2 : k * step < half + step := by
    have := Int.ceil_lt_add_one (half / step)
    rw [hk] at this
    have h2 := mul_lt_mul_of_pos_right this hp
    rw [add_mul, div_mul_cancel₀ _ hp.ne', one_mul] at h2
    exact_mod_cast h2
  have hks : 0 ≤ (k : ℝ) * step := mul_nonneg (Nat.cast_nonneg _) hp.le
  unfold lineMeasRanges lineMeasSampling
  rw [if_neg hp.ne', if_pos rfl, Res.bind_ok, hk]
  unfold zgrid
  rw [show (("log" : String) == "log") = true by decide, if_pos rfl]
  simp only [Int.cast_natCast]
  set r : Range ℝ := ⟨center - (1 - Real.exp (-(k * step))) * (1 + center), center + (Real.exp (k * step) - 1) * (1 + center)⟩ with hr
  have hrb : r.b + 1 = (1 + center) * Real.exp (-(k * step)) := by rw [hr]; ring
  have hre : r.e + 1 = (1 + center) * Real.exp (k * step) := by rw [hr]; ring
  have hone : 1 ≤ Real.exp (k * step) := Real.one_le_exp hks
  have hexp1 : step ≤ Real.exp step - 1 := by have := Real.add_one_le_exp step; linarith
  obtain ⟨v, h1, h2, h3, h4, h5, h6⟩ := C06_log_eps_forward r step 1 eps hp eps_pos.le
    (by
      have : Real.exp (-(k * step)) ≤ Real.exp (k * step) := Real.exp_le_exp.2 (by linarith)
      have := mul_le_mul_of_nonneg_left this h1c.le
      linarith)
    (by rw [hrb]; exact mul_pos h1c (Real.exp_pos _))
    (by
      rw [hre]
      have a1 : (1 + center) * 1 ≤ (1 + center) * Real.exp (k * step) := mul_le_mul_of_nonneg_left hone h1c.le
      have a2 : (1 + center) * step ≤ (1 + center) * Real.exp (k * step) * (Real.exp step - 1) :=
        mul_le_mul (by linarith) hexp1 hp.le (mul_nonneg h1c.le (Real.exp_pos _).le)
      linarith)
  have hpt : ∀ i : ℝ, (r.b + 1) * Real.exp (i * step) = (1 + center) * Real.exp ((i - k) * step) := by
    intro i
    rw [hrb, mul_assoc, ← Real.exp_add]
    congr 2; ring
  have hmono : ∀ i : ℝ, i ≤ 2 * k → (r.b + 1) * Real.exp (i * step) ≤ r.e + 1 := by
    intro i hi
    rw [hpt, hre]
    refine mul_le_mul_of_nonneg_left (Real.exp_le_exp.2 ?_) h1c.le
    exact mul_le_mul_of_nonneg_right (by linarith) hp.le
  have hmono' : ∀ i : ℝ, 2 * k ≤ i → r.e + 1 ≤ (r.b + 1) * Real.exp (i * step) := by
    intro i hi
    rw [hpt, hre]
    refine mul_le_mul_of_nonneg_left (Real.exp_le_exp.2 ?_) h1c.le
    exact mul_le_mul_of_nonneg_right (by linarith) hp.le
  have hlen : v.length = 2 * k + 1 := by
    have hlow : 2 * k < v.length := by
      by_contra hcc
      have hcc : (v.length : ℝ) ≤ 2 * k := by exact_mod_cast not_lt.1 hcc
      have := hmono _ hcc
      have he := eps_pos
      linarith
    by_contra hcc
    have hl : 2 * k + 1 < v.length := by omega
    have e1 := h5 (2 * k) (by omega)
    have e2 := h5 (2 * k + 1) hl
    have hlt := List.pairwise_iff_getElem.1 h2 (2 * k) (2 * k + 1) (by omega) hl (by omega)
    rw [e1, e2] at hlt
    push_cast at hlt
    have q1 := hmono' (2 * k) (le_refl _)
    have q2 := hmono' (2 * k + 1) (by linarith)
    rw [min_eq_right (by linarith), min_eq_right (by linarith)] at hlt
    exact lt_irrefl _ hlt
  refine ⟨k, v, h1, hk1, hk2, hlen, fun j h => ?_⟩
  have hj : (j : ℝ) ≤ 2 * k := by
    have : j ≤ 2 * k := by omega
    exact_mod_cast this
  have hm := hmono j hj
  rw [h5 j h, min_eq_left (by linarith), ← hpt]
  ring

/-- **C155** In particular the reference redshift is one of the redshifts at which the lines are measured, with both samplings. -/
theorem C155_reference {samp : String} {center half step : ℝ} (hc : -1 < center) (hstep : eps < step) (hstep' : eps < step * (1 + center)) (hh : 0 ≤ half) :
    ∃ g, lineMeasRanges samp center half step = .ok g ∧ center ∈ g := by
  by_cases hs : samp = "log"
  · subst hs
    obtain ⟨k, g, h1, _, _, h2, h3⟩ := C155_linemeas_log hc hstep' hh
    refine ⟨g, h1, ?_⟩
    have := h3 k (by omega)
    rw [sub_self, zero_mul, Real.exp_zero, mul_one] at this
    have hg : g[k]'(by omega) = center := by linarith
    rw [← hg]; exact List.getElem_mem _
  · obtain ⟨k, g, h1, _, _, h2, h3⟩ := C155_linemeas_lin hs (center := center) hstep hh
    refine ⟨g, h1, ?_⟩
    have := h3 k (by omega)
    rw [sub_self, zero_mul, add_zero] at this
    rw [← this]; exact List.getElem_mem _

/-- **C155** The redshift range and step of the other solvers: those of the log rebinning when the category has one, in which case a linear sampling is refused,
otherwise those of the parameters; the sampling is logarithmic only if it is "log". -/
theorem C155_ranges (i : Inputs) :
    (i.logRebin ≠ none → i.sampling = "lin" → initRanges i = .throw .BAD_PARAMETER_VALUE) ∧
    (∀ r, i.logRebin = some r → i.sampling = "log" → initRanges i = (r.spreadOverLogEps i.logStep 1 false eps >>= fun g => .ok (g, i.logStep))) ∧
    (i.logRebin = none → i.sampling = "log" → initRanges i = (i.range.spreadOverLogEps i.step 1 false eps >>= fun g => .ok (g, i.step))) ∧
    (i.logRebin = none → i.sampling ≠ "log" → initRanges i = (i.range.spreadOverEps i.step false eps >>= fun g => .ok (g, i.step))) := by
  have hlog : ("log" == "log") = true := by decide
  refine ⟨?_, ?_, ?_, ?_⟩
  · intro h1 h2
    unfold initRanges sampling
    cases h : i.logRebin with
    | none => exact absurd h h1
    | some r => simp only [if_pos h2]; rfl
  · intro r h1 h2
    unfold initRanges sampling zgrid
    rw [h1, h2]
    simp only
    rw [if_neg (by decide), Res.bind_ok, hlog, if_pos rfl]
  · intro h1 h2
    unfold initRanges sampling zgrid
    rw [h1, h2]
    simp only
    rw [Res.bind_ok, hlog, if_pos rfl]
  · intro h1 h2
    unfold initRanges sampling zgrid
    rw [h1]
    simp only
    have hb : (i.sampling == "log") = false := by simpa using h2
    rw [Res.bind_ok, hb, if_neg (by simp)]

/-- **C155** The grid of the first pass of the line model: the coarse grid when it has at least ten redshifts, and otherwise the fine grid, the coarse step being then
the fine one. -/
theorem C155_linemodel {i : Inputs} {ratio : Int} {g : List ℝ} {fine coarse : ℝ} (h : lineModelRanges i ratio = .ok (g, fine, coarse)) :
    ∃ r, sampling i = .ok (r, fine) ∧
      zgrid r coarse (i.sampling == "log") = .ok g ∧
      ((coarse = fine * ratio ∧ 10 ≤ g.length) ∨
       (coarse = fine ∧ ∃ g', zgrid r (fine * ratio) (i.sampling == "log") = .ok g' ∧ g'.length < 10)) := by
  unfold lineModelRanges at h
  obtain ⟨⟨r, s⟩, h1, h⟩ := Res.bind_eq_ok.1 h
  obtain ⟨g', h2, h⟩ := Res.bind_eq_ok.1 h
  simp only at h h2
  split at h
  · rename_i hlt
    obtain ⟨g'', h3, h⟩ := Res.bind_eq_ok.1 h
    cases h
    exact ⟨r, h1, h3, Or.inr ⟨rfl, g', h2, hlt⟩⟩
  · rename_i hge
    cases h
    exact ⟨r, h1, h2, Or.inl ⟨rfl, not_lt.1 hge⟩⟩

/-- Five redshifts around 2. -/
example : ∃ g, lineMeasRanges "lin" 2 (1 / 500) (1 / 1000) = .ok g ∧ g.length = 5 ∧ (2 : ℝ) ∈ g := by
  obtain ⟨k, g, h1, h2, h3, h4, h5⟩ := C155_linemeas_lin (samp := "lin") (by decide) (center := 2) (half := 1 / 500) (step := 1 / 1000)
    (by unfold eps; norm_num) (by norm_num)
  have hk : k = 2 := by
    have a : (2 : ℝ) ≤ k := by linarith
    have b : (k : ℝ) < 3 := by linarith
    have a' : 2 ≤ k := by exact_mod_cast a
    have b' : k < 3 := by exact_mod_cast b
    omega
  subst hk
  refine ⟨g, h1, h4, ?_⟩
  have := h5 2 (by omega)
  norm_num at this
  rw [← this]; exact List.getElem_mem _

end ObjSolve
end Amazed
