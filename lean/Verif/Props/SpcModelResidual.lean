import Verif.Props.SpcModelRemoved

set_option linter.unusedVariables false
set_option linter.unusedSectionVars false

/-! # Residuals of the model and continuum from a template (C83) -/

namespace Amazed
namespace SpcModel
open EltSup EltList

variable {K : Type} [Field K] [LinearOrder K] [IsStrictOrderedRing K] {G : Type} [LinearOrder G]

theorem atZ_getD (l : List K) (z : ℤ) (h0 : 0 ≤ z) (h1 : z < l.length) : Res.atZ l z = .ok (l.getD z.toNat 0) := by
  unfold Res.atZ
  rw [if_neg (by omega)]
  have h : z.toNat < l.length := by omega
  rw [Res.at_of_lt h, List.getD_eq_getElem?_getD, List.getElem?_eq_getElem h]
  rfl

/-- The weight of sample `p`. -/
def sampleWeight (withWeight : Bool) (err : List K) (p : Nat) : K := if withWeight then 1 / (err.getD p 0 * err.getD p 0) else 1

/-- **C83, squared residual.** The residual under a nonempty list of elements is the sum, over the samples covered by one of them, each counted once however many elements
cover it, of the weighted squares of the difference between the spectrum (or the spectrum without continuum) and the model, and the sum of the weights. -/
theorem C83_squared_residual (es : List (El K G)) (idx : List Nat) (withCont withWeight : Bool) (err : List K) (s : St K) (hs : SAxis.Increasing s.axis)
    (hne : s.axis ≠ []) (hp : Prepared s.axis es) (hi : ∀ i ∈ idx, i < es.length) (hidx : idx ≠ []) (h1 : s.spc.length = s.axis.length)
    (h2 : s.noCont.length = s.axis.length) (h3 : s.model.length = s.axis.length) (h4 : err.length = s.axis.length) (hpos : ∀ x ∈ err, 0 < x) :
    ∃ ps : List Nat, ps.Pairwise (· < ·) ∧ (∀ p : Nat, p ∈ ps ↔ ∃ e ∈ pick es idx, Covered e.base p) ∧
      sqResidual es idx withCont withWeight err s = .ok (some
        ((ps.map fun p => ((if withCont then s.spc else s.noCont).getD p 0 - s.model.getD p 0) ^ 2 * sampleWeight withWeight err p).sum,
         (ps.map fun p => sampleWeight withWeight err p).sum)) := by
  obtain ⟨xs, c1, c2, c3⟩ := C74_support (es.map (·.base)) idx (fun i h => by simpa using hi i h)
  have hbd : ∀ p ∈ xs, 0 ≤ p ∧ p < s.axis.length := by
    intro p hpx
    obtain ⟨i, _, b, hb, hcv⟩ := (c3 p).1 hpx
    exact covered_bounds hs hne hp b (List.mem_of_getElem? hb) p hcv
  refine ⟨xs.map Int.toNat, ?_, ?_, ?_⟩
  · rw [List.pairwise_map]
    refine c2.imp_of_mem ?_
    intro a b ha hb hab
    have := hbd a ha
    have := hbd b hb
    omega
  · intro p
    rw [← coveredBy_iff, ← c3, List.mem_map]
    constructor
    · rintro ⟨z, hz, rfl⟩
      have := hbd z hz
      rw [Int.toNat_of_nonneg this.1]
      exact hz
    · intro h
      exact ⟨p, h, by simp⟩
  · unfold sqResidual
    rw [if_neg hidx, c1, Res.bind_ok]
    obtain ⟨q, d1, d2⟩ := foldL_inv (fun (pre : List ℤ) (st : K × K) =>
        st = (((pre.map Int.toNat).map fun p => ((if withCont then s.spc else s.noCont).getD p 0 - s.model.getD p 0) ^ 2 * sampleWeight withWeight err p).sum,
         ((pre.map Int.toNat).map fun p => sampleWeight withWeight err p).sum)) xs [] ((0 : K), (0 : K)) (by simp)
      (f := fun z st =>
        Res.atZ (if withCont then s.spc else s.noCont) z >>= fun y => Res.atZ s.model z >>= fun m =>
        (if withWeight then Res.atZ err z >>= fun e => if e = 0 then .ub else .ok (1 / (e * e)) else .ok 1) >>= fun w =>
        .ok (st.1 + (y - m) * (y - m) * w, st.2 + w))
      (by
        intro pre z st hz hst
        obtain ⟨b0, b1⟩ := hbd z hz
        have hw : (if withWeight then Res.atZ err z >>= fun e => if e = 0 then Res.ub else .ok (1 / (e * e)) else .ok 1) = .ok (sampleWeight withWeight err z.toNat) := by
          unfold sampleWeight
          by_cases hw : withWeight = true
          · have hl : z.toNat < err.length := by omega
            rw [if_pos hw, if_pos hw, atZ_getD err z b0 (by omega), Res.bind_ok, if_neg]
            rw [List.getD_eq_getElem?_getD, List.getElem?_eq_getElem hl, Option.getD_some]
            exact (hpos _ (List.getElem_mem _)).ne'
          · rw [if_neg hw, if_neg hw]
        refine ⟨_, by rw [atZ_getD _ z b0 (by split <;> omega), Res.bind_ok, atZ_getD _ z b0 (by omega), Res.bind_ok, hw, Res.bind_ok], ?_⟩
        rw [hst]
        simp [pow_two])
    rw [d1, Res.bind_ok, d2, List.nil_append]

/-- An empty list of elements has no residual (NaN). -/
theorem C83_no_element (es : List (El K G)) (withCont withWeight : Bool) (err : List K) (s : St K) : sqResidual es [] withCont withWeight err s = .ok none := rfl

/-- The residuals of the spectra that are numbers different from 0. -/
def nonZero (rs : List (Option (K × K))) : List (K × K) := (rs.filterMap id).filter fun q => decide (q.1 ≠ 0)

theorem rmsSums_spec (rs : List (Option (K × K))) :
    rmsSums rs = ((((nonZero rs).map (·.1)).sum, ((nonZero rs).map (·.2)).sum), (rs.filter fun r => r.isNone).length) := by
  unfold nonZero
  induction rs with
  | nil => rfl
  | cons r rs ih =>
    cases r with
    | none =>
      unfold rmsSums
      rw [ih]
      simp
    | some q =>
      unfold rmsSums
      by_cases hq : q.1 = 0
      · rw [if_pos hq, ih]
        simp [hq]
      · rw [if_neg hq, ih]
        simp [hq]

/-- **C83, root mean square residual.** From the squared residuals of the spectra (positive weights, some number): the rms is the square root of the sum of the residuals over the sum of
the weights, of the spectra whose residual is not exactly 0; it is NaN when there is none. -/
theorem C83_rms (sq : K → K) (rs : List (Option (K × K))) (hpos : ∀ q, some q ∈ rs → q.1 ≠ 0 → 0 < q.2) :
    (nonZero rs = [] → rms sq rs = none) ∧
    (nonZero rs ≠ [] → rms sq rs = some (sq (((nonZero rs).map (·.1)).sum / ((nonZero rs).map (·.2)).sum))) := by
  have hsum : nonZero rs ≠ [] → 0 < ((nonZero rs).map (·.2)).sum := by
    intro h
    have hp : ∀ q ∈ nonZero rs, 0 < q.2 := by
      intro q hq
      unfold nonZero at hq
      rw [List.mem_filter, List.mem_filterMap] at hq
      obtain ⟨⟨r, hr, hrq⟩, hq0⟩ := hq
      simp only [id] at hrq
      subst hrq
      exact hpos q hr (by simpa using hq0)
    obtain ⟨q, l, hl⟩ := List.exists_cons_of_ne_nil h
    rw [hl] at hp ⊢
    rw [List.map_cons, List.sum_cons]
    have h0 : 0 ≤ (l.map (·.2)).sum := List.sum_nonneg (by
      intro x hx
      obtain ⟨q', hq', rfl⟩ := List.mem_map.1 hx
      exact (hp q' (by simp [hq'])).le)
    have := hp q (by simp)
    linarith
  unfold rms
  rw [rmsSums_spec]
  simp only
  constructor
  · intro h
    rw [h]
    simp
  · intro h
    rw [if_neg, if_pos (hsum h).ne']
    intro hl
    apply h
    unfold nonZero
    rw [List.filterMap_eq_nil_iff.2]
    · rfl
    · intro r hr
      have := List.length_filter_eq_length_iff.1 hl r hr
      cases r with
      | none => rfl
      | some q => simp at this

/-- When no residual is exactly 0 every spectrum counts. -/
theorem C83_rms_all (sq : K → K) (qs : List (K × K)) (hne : qs ≠ []) (hw : ∀ q ∈ qs, 0 < q.2) (h0 : ∀ q ∈ qs, q.1 ≠ 0) :
    rms sq (qs.map some) = some (sq ((qs.map (·.1)).sum / (qs.map (·.2)).sum)) := by
  have hz : nonZero (qs.map some) = qs := by
    unfold nonZero
    rw [List.filterMap_map]
    simp only [Function.comp_def, id, List.filterMap_some]
    exact List.filter_eq_self.2 fun q hq => by simpa using h0 q hq
  have := (C83_rms sq (qs.map some) (by
    intro q hq _
    obtain ⟨q', hq', h⟩ := List.mem_map.1 hq
    cases h
    exact hw q hq')).2 (by rw [hz]; exact hne)
  rw [hz] at this
  exact this

example : (∀ q, some q ∈ [some ((4 : ℚ), (2 : ℚ)), none, some (5, 1)] → q.1 ≠ 0 → 0 < q.2) ∧ rms id [some ((4 : ℚ), (2 : ℚ)), none, some (5, 1)] = some 3 := by
  refine ⟨?_, by decide +kernel⟩
  intro q hq _
  simp at hq
  rcases hq with rfl | rfl <;> norm_num

/-- A perfect fit has no rms (NaN), so it compares as worse than nothing; and a spectrum fitted perfectly is left out of the mean: with residuals 0 and 4 over weights 4 and 4 the mean square
returned is 1 and not 1/2. -/
theorem C83_zero_counterexample :
    (∀ sq : ℚ → ℚ, rms sq [some (0, 4)] = none) ∧ (∀ sq : ℚ → ℚ, rms sq [some (0, 4), some (4, 4)] = some (sq 1)) ∧ (1 : ℚ) ≠ (0 + 4) / (4 + 4) := by
  refine ⟨fun sq => ?_, fun sq => ?_, by norm_num⟩
  · simp [rms, rmsSums]
  · simp [rms, rmsSums]

/-- **C83, without the continuum.** The residual without the continuum compares the flux without continuum with the model, which has the continuum: for a model equal to the spectrum it is
the weighted sum of the squares of the continuum over the covered samples and not 0, where the residual with the continuum is 0. -/
theorem C83_without_continuum_counterexample (es : List (El K G)) (idx : List Nat) (withWeight : Bool) (err : List K) (s : St K) (hs : SAxis.Increasing s.axis)
    (hne : s.axis ≠ []) (hp : Prepared s.axis es) (hi : ∀ i ∈ idx, i < es.length) (hidx : idx ≠ []) (h1 : s.spc.length = s.axis.length)
    (h2 : s.cont.length = s.axis.length) (h4 : err.length = s.axis.length) (hpos : ∀ x ∈ err, 0 < x) (hm : s.model = s.spc) (hn : s.noCont = sub s.spc s.cont) :
    ∃ ps : List Nat, (∀ p : Nat, p ∈ ps ↔ ∃ e ∈ pick es idx, Covered e.base p) ∧
      sqResidual es idx true withWeight err s = .ok (some (0, (ps.map fun p => sampleWeight withWeight err p).sum)) ∧
      sqResidual es idx false withWeight err s = .ok (some ((ps.map fun p => (s.cont.getD p 0) ^ 2 * sampleWeight withWeight err p).sum,
        (ps.map fun p => sampleWeight withWeight err p).sum)) := by
  have hnl : s.noCont.length = s.axis.length := by rw [hn]; simp [sub, h1, h2]
  have hml : s.model.length = s.axis.length := by rw [hm, h1]
  obtain ⟨ps, a1, a2, a3⟩ := C83_squared_residual es idx true withWeight err s hs hne hp hi hidx h1 hnl hml h4 hpos
  obtain ⟨qs, b1, b2, b3⟩ := C83_squared_residual es idx false withWeight err s hs hne hp hi hidx h1 hnl hml h4 hpos
  have hpq : qs = ps := b1.eq_of_mem_iff a1 fun p => by rw [a2, b2]
  subst hpq
  refine ⟨qs, b2, ?_, ?_⟩
  · rw [a3]
    congr 3
    apply List.sum_eq_zero
    intro x hx
    obtain ⟨p, _, rfl⟩ := List.mem_map.1 hx
    simp [hm]
  · rw [b3]
    congr 4
    refine List.map_congr_left fun p _ => ?_
    have : s.noCont.getD p 0 - s.model.getD p 0 = - s.cont.getD p 0 := by
      rw [hn, hm]
      by_cases h : p < s.axis.length
      · simp [sub, List.getD_eq_getElem?_getD, List.getElem?_zipWith, List.getElem?_eq_getElem (show p < s.spc.length by omega), List.getElem?_eq_getElem (show p < s.cont.length by omega)]
      · simp [sub, List.getD_eq_getElem?_getD, List.getElem?_zipWith, List.getElem?_eq_none (show s.spc.length ≤ p by omega), List.getElem?_eq_none (show s.cont.length ≤ p by omega)]
    rw [if_neg (by decide), this, neg_sq]

/-- **C83, weights.** After the continuum component is set to `noContinuum` or `tplFit`, whatever operations are made on the model its errors are 1: the weighted residual ignores the errors
of the spectrum. -/
theorem C83_weights_one (contErr input : List K) (c : Component) (hc : c ≠ .fromSpectrum) (ops : List ErrOp) :
    (ops.foldl (fun e o => Errs.op o e) (Errs.setComponent contErr input.length c (Errs.init input))).model = List.replicate input.length 1 := by
  have key : ∀ (ops : List ErrOp) (e : Errs K), e.cont = List.replicate input.length 1 → e.model = List.replicate input.length 1 →
      (ops.foldl (fun e o => Errs.op o e) e).model = List.replicate input.length 1 := by
    intro ops
    induction ops with
    | nil => intro e _ h; exact h
    | cons o ops ih =>
      intro e h1 h2
      apply ih
      · cases o <;> exact h1
      · cases o
        · exact h1
        · exact h1
        · exact h1
        · exact h2
        · exact h2
  apply key
  · cases c
    · rfl
    · exact absurd rfl hc
    · rfl
  · cases c
    · rfl
    · exact absurd rfl hc
    · rfl

/-- A spectrum of errors 2 and 3: the weighted residual after `tplFit` and a refresh uses the weight 1 where 1/4 and 1/9 were meant. -/
example : ([ErrOp.refresh, ErrOp.refreshUnder].foldl (fun e o => Errs.op o e) (Errs.setComponent [5, 5] 2 .tplFit (Errs.init [(2 : ℚ), 3]))).model = [1, 1] := by
  decide +kernel

/-- The value of a polynomial given by its coefficients from degree 0. -/
def polyVal (poly : List K) (x : K) : K := ((List.range poly.length).map fun i => poly.getD i 0 * x ^ i).sum

theorem poly_fold (b : K) (poly : List K) (x : K) : ∀ (acc t : K),
    (poly.foldl (fun (st : K × K) q => (st.1 + b * q * st.2, st.2 * x)) (acc, t)).1 = acc + b * t * polyVal poly x := by
  unfold polyVal
  induction poly with
  | nil => intro acc t; simp
  | cons a poly ih =>
    intro acc t
    rw [List.foldl_cons, ih, List.length_cons, List.range_succ_eq_map, List.map_cons, List.sum_cons, List.map_map]
    have : ((List.range poly.length).map ((fun i => (a :: poly).getD i 0 * x ^ i) ∘ Nat.succ)).sum = x * ((List.range poly.length).map fun i => poly.getD i 0 * x ^ i).sum := by
      rw [← List.sum_map_mul_left]
      congr 1
      apply List.map_congr_left
      intro i _
      simp [pow_succ]
      ring
    rw [this]
    simp
    ring

/-- **C83, continuum from a template.** At each sample the continuum is (1 - alpha) times the template times its amplitude plus its polynomial, plus alpha times the continuum of the input
spectrum; and the flux without continuum is the flux minus it. -/
theorem C83_continuum (alpha amp : K) (poly grid inputCont : List K) (s : St K) (hc : s.cont.length = s.axis.length) (h1 : s.spc.length = s.axis.length)
    (h2 : s.noCont.length = s.axis.length) (h3 : grid.length = s.axis.length) (h4 : inputCont.length = s.axis.length) :
    ∃ c n : List K, setFromTplFit alpha amp poly grid inputCont s = .ok { s with cont := c, noCont := n } ∧ c.length = s.axis.length ∧ n.length = s.axis.length ∧
      ∀ (p : Nat) x y g c0, s.axis[p]? = some x → s.spc[p]? = some y → grid[p]? = some g → inputCont[p]? = some c0 →
        c[p]? = some ((1 - alpha) * (g * amp + polyVal poly x) + alpha * c0) ∧ n[p]? = some (y - ((1 - alpha) * (g * amp + polyVal poly x) + alpha * c0)) := by
  have hform : ∀ g c0 x : K, tplContinuum alpha amp poly (if alpha = 1 then 0 else g) (if alpha ≠ 0 then c0 else 0) x =
      (1 - alpha) * (g * amp + polyVal poly x) + alpha * c0 := by
    intro g c0 x
    unfold tplContinuum
    simp only [poly_fold]
    by_cases ha : alpha = 1
    · subst ha; simp
    · rw [if_neg ha, if_neg ha, if_pos ha]
      by_cases h0 : alpha = 0
      · subst h0; simp
      · rw [if_pos h0, if_pos h0]; ring
  let F : Nat → K := fun p => (1 - alpha) * (grid.getD p 0 * amp + polyVal poly (s.axis.getD p 0)) + alpha * inputCont.getD p 0
  have htab : Res.tab (fun k => (if alpha = 1 then .ok 0 else Res.at_ grid k) >>= fun g =>
    (if alpha ≠ 0 then Res.at_ inputCont k else .ok 0) >>= fun c0 => Res.at_ s.axis k >>= fun x =>
    Res.at_ s.spc k >>= fun y => Res.at_ s.noCont k >>= fun _ =>
    .ok (tplContinuum alpha amp poly g c0 x, y - tplContinuum alpha amp poly g c0 x)) s.cont.length =
      .ok ((List.range s.cont.length).map fun p => (F p, s.spc.getD p 0 - F p)) := by
    apply Res.tab_ok
    intro i hi
    have q1 : i < grid.length := by omega
    have q2 : i < inputCont.length := by omega
    have q3 : i < s.axis.length := by omega
    have q4 : i < s.spc.length := by omega
    have q5 : i < s.noCont.length := by omega
    have e1 : (if alpha = 1 then Res.ok 0 else Res.at_ grid i) = .ok (if alpha = 1 then 0 else grid[i]) := by
      rw [Res.at_of_lt q1]; split <;> rfl
    have e2 : (if alpha ≠ 0 then Res.at_ inputCont i else Res.ok 0) = .ok (if alpha ≠ 0 then inputCont[i] else 0) := by
      rw [Res.at_of_lt q2]; split <;> rfl
    rw [e1, Res.bind_ok, e2, Res.bind_ok, Res.at_of_lt q3, Res.bind_ok, Res.at_of_lt q4, Res.bind_ok, Res.at_of_lt q5, Res.bind_ok, hform]
    simp only [F, List.getD_eq_getElem?_getD, List.getElem?_eq_getElem q1, List.getElem?_eq_getElem q2, List.getElem?_eq_getElem q3, List.getElem?_eq_getElem q4, Option.getD_some]
  refine ⟨(List.range s.cont.length).map F, (List.range s.cont.length).map fun p => s.spc.getD p 0 - F p, ?_, by simpa using hc, by simpa using hc, ?_⟩
  · unfold setFromTplFit
    rw [htab, Res.bind_ok, List.drop_eq_nil_of_le (by omega)]
    simp [Function.comp_def]
  · intro p x y g c0 g1 g2 g3 g4
    have hpl : p < s.cont.length := by rw [hc]; exact (List.getElem?_eq_some_iff.1 g1).1
    have hF : F p = (1 - alpha) * (g * amp + polyVal poly x) + alpha * c0 := by
      simp only [F, List.getD_eq_getElem?_getD, g1, g3, g4, Option.getD_some]
    constructor
    · rw [List.getElem?_map, List.getElem?_range hpl, Option.map_some, hF]
    · rw [List.getElem?_map, List.getElem?_range hpl, Option.map_some, hF, List.getD_eq_getElem?_getD, g2, Option.getD_some]

example : (setFromTplFit (1 / 2) 2 [1, 10] [1, 1, 1, 1, 1, 1, 1] [4, 4, 4, 4, 4, 4, 4] exFit >>= fun s => .ok s.cont) = .ok [7 / 2, 17 / 2, 27 / 2, 37 / 2, 47 / 2, 57 / 2, 67 / 2] := by
  decide +kernel

example : sqResidual exEs [0, 1] true true [2, 2, 2, 2, 2, 2, 2] exSt = .ok (some (3 / 4, 3 / 4)) := by decide +kernel

end SpcModel
end Amazed
