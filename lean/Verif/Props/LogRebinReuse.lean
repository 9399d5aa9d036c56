import Verif.Props.LogRebinProps

/-! # C60, continued: log-sampled spectra, reuse of rebinned templates -/

set_option linter.unusedSectionVars false
set_option linter.unusedVariables false

namespace Amazed
namespace LogRebin

open Classical

noncomputable section

theorem geom_isLog (b d : ℝ) (n : ℕ) (hb : 0 < b) (hn : 2 ≤ n) :
    ∃ a, (SAxis.ofList (geom b d n)).isLogSampled = .ok (true, a) := by
  have : geom b d n = (List.range n).map (fun i => b * Real.exp d ^ i) := by
    unfold geom
    apply List.map_congr_left
    intro i _
    rw [Real.exp_nat_mul]
  rw [this]
  exact SAxis.checkLog_geometric b (Real.exp d) hb (Real.exp_pos d) n hn

theorem geom_regularStep (b d : ℝ) (n : ℕ) (hb : 0 < b) (hn : 2 ≤ n) : regularStep (geom b d n) = d := by
  obtain ⟨m, rfl⟩ : ∃ m, n = m + 2 := ⟨n - 2, by omega⟩
  unfold regularStep
  rw [dif_neg (by simp)]
  rw [geom_getElem, geom_getElem]
  simp only [geom_length]
  have : b * Real.exp (((m + 2 - 1 : ℕ) : ℝ) * d) / (b * Real.exp (((0 : ℕ) : ℝ) * d)) = Real.exp ((m + 1) * d) := by
    have : ((m + 2 - 1 : ℕ) : ℝ) = m + 1 := by rw [show m + 2 - 1 = m + 1 by omega]; push_cast; rfl
    rw [this]; simp; field_simp
  rw [this, Real.log_exp]
  push_cast
  have : (m : ℝ) + 2 - 1 ≠ 0 := by have : (0:ℝ) ≤ m := Nat.cast_nonneg m; linarith
  field_simp
  ring

theorem geom_lambdaRange (b d : ℝ) (n : ℕ) : SAxis.lambdaRange (geom b d (n + 2)) = ⟨b, gp b d (n + 1)⟩ := by
  unfold SAxis.lambdaRange
  rw [dif_neg (by simp), geom_getElem, geom_getElem]
  simp [gp]

/-- **C60, log-sampled spectrum of another step.** A spectrum that is already log-sampled, but whose step differs from the
requested one by more than 1e-7, is refused, whatever the requested range. -/
theorem C60_setup_other_step (d s d' : ℝ) (n : ℕ) (hs : 0 < s) (hn : 2 ≤ n) (h : 1 / 10000000 < |d' - d|) (lr : Range ℝ) :
    setup d (geom s d' n) lr = .throw .INTERNAL_ERROR := by
  obtain ⟨a, ha⟩ := geom_isLog s d' n hs hn
  have hd : decide (¬ |d' - d| > 1 / 10000000) = false := by simpa using h
  unfold setup isLogSampledStep
  rw [ha]
  simp only [Res.bind_ok, geom_regularStep s d' n hs hn, hd]
  rfl

example : setup (1 / 1000) (geom 3800 (1 / 2000) 500) ⟨4000, 4500⟩ = .throw .INTERNAL_ERROR :=
  C60_setup_other_step _ _ _ _ (by norm_num) (by norm_num) (by rw [abs_of_neg (by norm_num)]; norm_num) _

/-- **C60, sizes.** A rebinned template has exactly the number of samples announced for its category, and a rebinned spectrum
exactly the number of grid points of its range (2 at least): otherwise the rebinning is refused. -/
theorem C60_sizes (m : Rebin.ErrMode) (d : ℝ) (xs ys es : List ℝ) (t : List ℝ) (cells : List (Rebin.Cell ℝ)) :
    (∀ r c, rebinTemplate d xs ys es r c = .ok (t, cells) → (t.length : ℤ) = c) ∧
    (∀ ref, rebinSpectrum m d ref xs ys es = .ok (t, cells) →
      ∃ r : Range ℝ, spectrumRange d ref xs = .ok (r, (t.length : ℤ)) ∧ 2 ≤ t.length) := by
  have key : ∀ (r : Range ℝ) (c : ℤ) (v : List ℝ), targetAxis d r c = .ok v → (v.length : ℤ) = c := by
    intro r c v h
    unfold targetAxis at h
    obtain ⟨w, _, h⟩ := Res.bind_eq_ok.1 h
    split at h
    · cases h
    · rename_i hc; cases h; simpa using hc
  constructor
  · intro r c h
    unfold rebinTemplate at h
    obtain ⟨_, _, h⟩ := Res.bind_eq_ok.1 h
    obtain ⟨_, _, h⟩ := Res.bind_eq_ok.1 h
    split at h
    · cases h
    · obtain ⟨v, hv, h⟩ := Res.bind_eq_ok.1 h
      obtain ⟨_, _, h⟩ := Res.bind_eq_ok.1 h
      obtain ⟨_, _, h⟩ := Res.bind_eq_ok.1 h
      split at h
      · cases h
      · obtain ⟨_, _, h⟩ := Res.bind_eq_ok.1 h
        obtain ⟨_, _, h⟩ := Res.bind_eq_ok.1 h
        cases h
        exact key r c _ hv
  · intro ref h
    unfold rebinSpectrum at h
    obtain ⟨_, _, h⟩ := Res.bind_eq_ok.1 h
    split at h
    · cases h
    · obtain ⟨⟨r, c⟩, hr, h⟩ := Res.bind_eq_ok.1 h
      obtain ⟨v, hv, h⟩ := Res.bind_eq_ok.1 h
      obtain ⟨_, _, h⟩ := Res.bind_eq_ok.1 h
      obtain ⟨_, _, h⟩ := Res.bind_eq_ok.1 h
      cases h
      have hl := key _ _ _ hv
      simp only at hl
      refine ⟨r, by rw [hl]; exact hr, ?_⟩
      unfold spectrumRange at hr
      obtain ⟨_, _, hr⟩ := Res.bind_eq_ok.1 hr
      split at hr
      · cases hr
      · obtain ⟨_, _, hr⟩ := Res.bind_eq_ok.1 hr
        obtain ⟨_, _, hr⟩ := Res.bind_eq_ok.1 hr
        simp only at hr
        split at hr
        · cases hr
        · rename_i hc
          cases hr
          omega

/-- **C60, alignment of log-sampled spectra.** The same holds for a log-sampled spectrum inside of the requested range,
which is used as it is. -/
theorem C60_alignment_log (d : ℝ) (ss : ℤ) (lr z : Range ℝ) (hd : 0 < d) (hss : 0 < ss) (hb : 0 < lr.b)
    (hzb : -1 < z.b) (hze : z.b ≤ z.e) (s : ℝ) (M : ℕ) (hs : 0 < s) (h0 : lr.b ≤ s) (h1 : s * Real.exp ((M + 1 : ℕ) * d) ≤ lr.e)
    (txs tys tes : List ℝ) (ref zr r : Range ℝ) (c : ℤ) (w : List ℝ) (tcells : List (Rebin.Cell ℝ))
    (href : setup d (geom s d (M + 2)) lr = .ok ref)
    (hcat : categorySetup d ss ref z = .ok (zr, r, c)) (htpl : rebinTemplate d txs tys tes r c = .ok (w, tcells))
    (heps : eps < r.b * d) :
    Aligned (geom s d (M + 2)) w d zr.b zr.e := by
  have hgM : gp s d ((M : ℤ) + 1) = s * Real.exp ((M + 1 : ℕ) * d) := by unfold gp; push_cast; rfl
  have hepos : 0 < lr.e := lt_of_lt_of_le (by positivity) h1
  rw [setup_log d _ lr (geom_isLog s d _ hs (by omega)) (by rw [geom_regularStep s d _ hs (by omega)]; norm_num),
    geom_lambdaRange] at href
  obtain ⟨n0, n1, hr1, hr2, hr3⟩ := refLog_spec d s (M + 1) lr hd hs hb hepos
  rw [hr1] at href
  cases href
  have hn0 : n0 ≤ 0 := (hr2 0).2 (by rw [gp_zero]; exact h0)
  have hn1 : (M : ℤ) + 1 ≤ n1 := (hr3 _).2 (by rw [hgM]; exact h1)
  obtain ⟨nb, hz1, _, _⟩ := C60_zrange d ss z hd hss hzb hze
  have e : (nb : ℝ) * (d * (ss : ℝ)) = ((nb * ss : ℤ) : ℝ) * d := by push_cast; ring
  have e0 : gp s d n1 = gp (gp s d n0) d (n1 - n0) := by
    rw [show n1 = n0 + (n1 - n0) by ring, gp_add]; simp [gp]
  unfold categorySetup at hcat
  rw [hz1] at hcat
  simp only [Res.bind_ok] at hcat
  rw [e, e0, templateSetup_spec d (gp s d n0) z.b (n1 - n0) (nb * ss) hd (gp_pos hs _) (by linarith)] at hcat
  cases hcat
  have hP0 : 0 ≤ (nb : ℤ) * ss := by positivity
  have hc0 : 0 < gp s d n0 / (1 + z.b) := div_pos (gp_pos hs _) (by linarith)
  obtain ⟨t, ht⟩ : ∃ t : ℕ, (t : ℤ) = (n1 - n0) + nb * ss := ⟨((n1 - n0) + nb * ss).toNat, by omega⟩
  have hw : w = geom (gp (gp s d n0 / (1 + z.b)) d (-(nb * ss))) d (t + 1) := by
    have e1 : gp (gp s d n0 / (1 + z.b)) d (n1 - n0) =
        gp (gp s d n0 / (1 + z.b)) d (-(nb * ss)) * Real.exp (t * d) := by
      have : n1 - n0 = -(nb * ss) + (t : ℤ) := by omega
      rw [this, gp_add]; push_cast; rfl
    rw [e1, ← ht] at htpl
    exact rebinTemplate_axis hd (gp_pos hc0 _) heps htpl
  rw [hw]
  exact aligned_core d (gp s d n0) z.b (n1 - n0) (nb * ss) (-n0) _ hd (gp_pos hs _) (by linarith) (by omega) hP0 (by
    intro i x hx
    have hin : i < M + 2 := by
      have := (List.getElem?_eq_some_iff.1 hx).1
      rwa [geom_length] at this
    rw [geom_get _ _ _ _ hin] at hx
    cases hx
    refine ⟨?_, by omega⟩
    have : gp (gp s d n0) d (-n0 + i) = gp s d (n0 + (-n0 + i)) := by rw [gp_add s d n0]; simp [gp]
    rw [this, show n0 + (-n0 + (i : ℤ)) = i by ring]
    unfold gp; push_cast; rfl) t ht

/-! ## Reuse of rebinned templates -/

/-- **C60, reuse.** A template rebinned for a range is not rebinned again for the same range and step. -/
theorem C60_reuse_stable (d c : ℝ) (n : ℕ) (hd : 0 < d) (hc : 0 < c) (hn : 1 ≤ n) :
    isRebinningNeeded d (geom c d (n + 1)) ⟨c, c * Real.exp (n * d)⟩ = .ok false := by
  obtain ⟨a, ha⟩ := geom_isLog c d (n + 1) hc (by omega)
  have hlg : isLogSampledStep (geom c d (n + 1)) d = .ok true := by
    unfold isLogSampledStep
    rw [ha, geom_regularStep c d _ hc (by omega)]
    simp
  have e2 : Res.at_ (geom c d (n + 1)) 0 = .ok c := by
    rw [Res.at_eq_ok]; rw [geom_get _ _ _ _ (by omega)]; simp
  have e3 : Res.atZ (geom c d (n + 1)) (((geom c d (n + 1)).length : ℤ) - 1) = .ok (c * Real.exp (n * d)) := by
    have : (((geom c d (n + 1)).length : ℤ) - 1) = ((n : ℕ) : ℤ) := by rw [geom_length]; push_cast; ring
    rw [this, Meiksin.atZ_nat, Res.at_eq_ok]
    exact geom_get _ _ _ _ (by omega)
  have hal : checkAlignment (geom c d (n + 1)) ⟨c, c * Real.exp (n * d)⟩ = .ok true := by
    obtain ⟨i, hi, hlt, hmin⟩ := C08_closer (geom c d (n + 1)) c (pairwise_le_of_lt (geom_pairwise hc hd _))
      (by intro h; have := congrArg List.length h; simp at this)
    unfold checkAlignment
    rw [hi]
    simp only [Res.bind_ok]
    have hcmem : c ∈ geom c d (n + 1) := by
      have := List.mem_of_getElem? (geom_get c d (n + 1) 0 (by omega))
      simpa using this
    have h1 := hmin c hcmem
    simp only [sub_self, abs_zero] at h1
    have h2 : (geom c d (n + 1))[i] = c := by
      have := abs_nonpos_iff.1 h1; linarith
    rw [Res.at_of_lt hlt, h2]
    simp only [Res.bind_ok]
    rw [if_neg hc.ne']
    simp only [sub_self, zero_div]
    norm_num
  unfold isRebinningNeeded
  rw [hlg, e2, e3, hal]
  simp

/-- **C60, reuse (partial).** A template that is kept is log-sampled with the step within 1e-7 (relative steps within 10%),
covers the required range, and its sample closest to the start of the range is not more than 2e-7 below it. Missing: that the
sample is not above the start either, so that the template is aligned; see the counterexample. -/
theorem C60_reuse_partial (d : ℝ) (w : List ℝ) (r : Range ℝ) (h : isRebinningNeeded d w r = .ok false)
    (hpos : ∀ x ∈ w, 0 < x) (hs : w.Pairwise (· ≤ ·)) :
    SAxis.LogRegular w ∧ |regularStep w - d| ≤ 1 / 10000000 ∧
    (∃ x0 x1, w.head? = some x0 ∧ w.getLast? = some x1 ∧ x0 ≤ r.b ∧ r.e ≤ x1) ∧
    ∃ x ∈ w, (∀ y ∈ w, |x - r.b| ≤ |y - r.b|) ∧ r.b ≤ x * (1 + 2 / 10000000) := by
  unfold isRebinningNeeded at h
  obtain ⟨lg, h1, h⟩ := Res.bind_eq_ok.1 h
  obtain ⟨w0, h2, h⟩ := Res.bind_eq_ok.1 h
  obtain ⟨w1, h3, h⟩ := Res.bind_eq_ok.1 h
  obtain ⟨al, h4, h⟩ := Res.bind_eq_ok.1 h
  simp only [Res.ok.injEq, decide_eq_false_iff_not, not_or, not_lt, gt_iff_lt, Bool.not_eq_false] at h
  obtain ⟨hl1, hl2, hl3, hl4⟩ := h
  subst hl1; subst hl4
  have hne : w ≠ [] := by rintro rfl; cases h2
  refine ⟨?_, ?_, ?_, ?_⟩
  · unfold isLogSampledStep at h1
    obtain ⟨⟨b, a⟩, h5, h6⟩ := Res.bind_eq_ok.1 h1
    cases b
    · cases h6
    · unfold SAxis.isLogSampled SAxis.ofList at h5
      exact (SAxis.checkLog_sound h5).2.2 rfl
  · unfold isLogSampledStep at h1
    obtain ⟨⟨b, a⟩, h5, h6⟩ := Res.bind_eq_ok.1 h1
    cases b
    · cases h6
    · simpa using h6
  · rw [Res.at_eq_ok] at h2
    have hlen : 0 < w.length := List.length_pos_iff.2 hne
    have : ((w.length : ℤ) - 1) = ((w.length - 1 : ℕ) : ℤ) := by omega
    rw [this, Meiksin.atZ_nat, Res.at_eq_ok] at h3
    refine ⟨w0, w1, by rw [List.head?_eq_getElem?]; exact h2, by rw [List.getLast?_eq_getElem?]; exact h3, hl2, hl3⟩
  · unfold checkAlignment at h4
    obtain ⟨i, hi, hlt, hmin⟩ := C08_closer w r.b hs hne
    rw [hi] at h4
    simp only [Res.bind_ok] at h4
    rw [Res.at_of_lt hlt] at h4
    simp only [Res.bind_ok] at h4
    have hp := hpos _ (List.getElem_mem hlt)
    rw [if_neg hp.ne'] at h4
    simp only [Res.ok.injEq, decide_eq_true_eq] at h4
    refine ⟨w[i], List.getElem_mem hlt, hmin, ?_⟩
    rw [div_le_iff₀ hp] at h4
    linarith

/-- **C60, finding.** The full claim "a template that is kept is aligned" is false: a template with samples 1, 2, 4, 8 is kept
for the range [1.8, 3.6], although its closest sample is 11% away from 1.8. -/
theorem C60_reuse_counterexample : ∃ (w : List ℝ) (r : Range ℝ), isRebinningNeeded (Real.log 2) w r = .ok false ∧
    w = [1, 2, 4, 8] ∧ r = ⟨1.8, 3.6⟩ ∧ ∀ x ∈ w, |x - r.b| ≥ 0.2 := by
  refine ⟨[1, 2, 4, 8], ⟨1.8, 3.6⟩, ?_, rfl, rfl, ?_⟩
  · have hgeom : ([1, 2, 4, 8] : List ℝ) = geom 1 (Real.log 2) (3 + 1) := by
      have e : ∀ k : ℕ, Real.exp ((k : ℝ) * Real.log 2) = 2 ^ k := by
        intro k; rw [Real.exp_nat_mul, Real.exp_log (by norm_num)]
      simp only [geom, e, List.range_succ]
      norm_num
    have hlg : isLogSampledStep [1, 2, 4, 8] (Real.log 2) = .ok true := by
      obtain ⟨a, ha⟩ := geom_isLog 1 (Real.log 2) (3 + 1) (by norm_num) (by omega)
      unfold isLogSampledStep
      rw [hgeom, ha, geom_regularStep 1 _ _ (by norm_num) (by omega)]
      simp
    have hal : checkAlignment [1, 2, 4, 8] ⟨1.8, 3.6⟩ = .ok true := by
      have : getCloserIndex ([1, 2, 4, 8] : List ℝ) 1.8 = .ok 1 := by
        have hlb : lowerBound ([1, 2, 4, 8] : List ℝ) 1.8 = 1 := by
          unfold lowerBound
          simp only [List.findIdx_cons]
          norm_num
        unfold getCloserIndex
        simp only [hlb]
        norm_num
      unfold checkAlignment
      rw [this]
      simp [Res.at_]
      norm_num
    unfold isRebinningNeeded
    rw [hlg, hal]
    simp [Res.at_, Res.atZ]
    norm_num
  · intro x hx
    simp only [List.mem_cons, List.not_mem_nil, or_false] at hx
    rcases hx with rfl | rfl | rfl | rfl <;> norm_num [abs_of_pos, abs_of_neg]

end
end LogRebin
end Amazed
