import Verif.Props.TplLogAll
import Mathlib.Analysis.SpecialFunctions.Log.Basic
import Mathlib.Analysis.Real.Sqrt

set_option linter.unusedSectionVars false
set_option linter.unusedVariables false

/-! # Template fitting on log-sampled grids: the part of the template that is used (C130), the prior (C131) -/

namespace Amazed
namespace TplLog

open TplFit (Prior setTbl Sample sumsOf weight IsSqrt get2 val)

variable {K : Type} [Field K] [LinearOrder K] [IsStrictOrderedRing K]

theorem cround_near [FloorRing K] {x : K} {m : ℤ} (h : |x - m| < 1 / 2) : MedCont.cround x = m := by
  obtain ⟨h1, h2⟩ := abs_lt.1 h
  unfold MedCont.cround
  split
  · rw [Int.floor_eq_iff]
    constructor <;> linarith
  · have : ⌊-x + 1 / 2⌋ = -m := by
      rw [Int.floor_eq_iff]
      push_cast
      constructor <;> linarith
    omega

theorem steps_near {lg : K → K} {num den step : K} (hd : 0 < den) (hn : 0 < num) (hs : step ≠ 0) :
    steps lg num den step = .ok (lg (num / den) / step) := by
  unfold steps
  rw [if_neg]
  have := div_pos hn hd
  push Not
  exact ⟨hd.ne', this, hs⟩

/-- **C130**: on a template and a spectrum of the same logarithmic step, when the first wavelength of the spectrum at rest is the sample `iB` of the template
at the first redshift and its sample `iE` at the last, the part of the template that is used is from `iE` to `iB` plus the size of the spectrum, less
one, if the template goes that far; otherwise the call throws. The logarithm only has to be within half a step. -/
theorem C130_indices [FloorRing K] {lg : K → K} {q step s0 t0 zb ze : K} {spc tpl : List K} {iB iE : Nat} (hq : 0 < q) (hst : step ≠ 0)
    (hlg : ∀ m : ℤ, |lg (q ^ m) / step - m| < 1 / 2) (hs0 : 0 < s0) (ht0 : 0 < t0) (h2 : 2 ≤ spc.length) (h3 : 2 ≤ tpl.length)
    (hspc : ∀ (j : Nat) (w : K), spc[j]? = some w → w = s0 * q ^ j) (htpl : ∀ (j : Nat) (w : K), tpl[j]? = some w → w = t0 * q ^ j)
    (hb : 1 + zb = s0 / (t0 * q ^ iB)) (he : 1 + ze = s0 / (t0 * q ^ iE)) (hle : iE ≤ iB) :
    findTplIndex lg spc tpl step zb ze =
      if iB + spc.length ≤ tpl.length then .ok ((iE : Int), (iB : Int) + spc.length - 1) else .throw .INTERNAL_ERROR := by
  have a0 := hspc 0 _ (List.getElem?_eq_getElem (by omega))
  have a1 := hspc (spc.length - 1) _ (List.getElem?_eq_getElem (by omega))
  have b0 := htpl 0 _ (List.getElem?_eq_getElem (by omega))
  have b1 := htpl (tpl.length - 1) _ (List.getElem?_eq_getElem (by omega))
  rw [pow_zero, mul_one] at a0 b0
  have p1 : 0 < t0 * q ^ (tpl.length - 1) := by positivity
  unfold findTplIndex
  rw [if_neg (by omega), Res.at_of_lt (by omega : 0 < spc.length), Res.bind_ok, Res.at_of_lt (by omega : spc.length - 1 < spc.length), Res.bind_ok,
    Res.at_of_lt (by omega : 0 < tpl.length), Res.bind_ok, Res.at_of_lt (by omega : tpl.length - 1 < tpl.length), Res.bind_ok, a0, a1, b0, b1,
    if_neg (by push Not; exact ⟨ht0.ne', p1.ne'⟩)]
  have z1 : (s0 - t0) / t0 + 1 = s0 / t0 := by field_simp; ring
  have z2 : (s0 * q ^ (spc.length - 1) - t0 * q ^ (tpl.length - 1)) / (t0 * q ^ (tpl.length - 1)) + 1 =
      s0 * q ^ (spc.length - 1) / (t0 * q ^ (tpl.length - 1)) := by field_simp; ring
  have w1 : ze + 1 = s0 / (t0 * q ^ iE) := by rw [← he]; ring
  have w2 : zb + 1 = s0 / (t0 * q ^ iB) := by rw [← hb]; ring
  simp only []
  rw [z1, z2, w1, w2, steps_near (by positivity) (by positivity) hst, Res.bind_ok, steps_near (by positivity) (by positivity) hst, Res.bind_ok]
  have r1 : s0 / t0 / (s0 / (t0 * q ^ iE)) = q ^ ((iE : Nat) : ℤ) := by
    rw [zpow_natCast]; field_simp
  have r2 : s0 / (t0 * q ^ iB) / (s0 * q ^ (spc.length - 1) / (t0 * q ^ (tpl.length - 1))) =
      q ^ ((tpl.length : ℤ) - spc.length - iB) := by
    rw [show (tpl.length : ℤ) - spc.length - iB = ((tpl.length - 1 : Nat) : ℤ) - ((spc.length - 1 : Nat) : ℤ) - (iB : ℤ) by omega,
      zpow_sub₀ hq.ne', zpow_sub₀ hq.ne', zpow_natCast, zpow_natCast, zpow_natCast]
    field_simp
  rw [r1, r2, cround_near (hlg _), cround_near (hlg _)]
  by_cases c : iB + spc.length ≤ tpl.length
  · rw [if_pos c, if_neg (by omega), if_neg (by omega)]
    congr 2
    omega
  · rw [if_neg c, if_pos (by omega)]

/-- **C130**: with the logarithm itself and its step. -/
theorem C130_log {q : ℝ} (hq : 1 < q) (m : ℤ) : |Real.log (q ^ m) / Real.log q - m| < 1 / 2 := by
  have : Real.log q ≠ 0 := (Real.log_pos hq).ne'
  rw [Real.log_zpow, mul_div_assoc, div_self this, mul_one, sub_self, abs_zero]
  norm_num

/-- The number of shifts of the part of the template is the number of redshifts. -/
example : (findTplIndex Real.log [4, 8, 16] [1, 2, 4, 8, 16] (Real.log 2) 0 1) = .ok (1, 4) := by
  have := C130_indices (lg := Real.log) (q := 2) (step := Real.log 2) (s0 := 4) (t0 := 1) (zb := 0) (ze := 1) (spc := [4, 8, 16])
    (tpl := [1, 2, 4, 8, 16]) (iB := 2) (iE := 1) (by norm_num) (Real.log_pos (by norm_num)).ne' (C130_log (by norm_num)) (by norm_num) (by norm_num)
    (by simp) (by simp)
    (by
      intro j w h
      have : j < 3 := (List.getElem?_eq_some_iff.1 h).1
      interval_cases j <;> simp at h <;> subst h <;> norm_num)
    (by
      intro j w h
      have : j < 5 := (List.getElem?_eq_some_iff.1 h).1
      interval_cases j <;> simp at h <;> subst h <;> norm_num) (by norm_num) (by norm_num) (by norm_num)
  rw [this]
  norm_num

/-! ## The fit returns on exact grids -/

theorem copyRows_total {sq : K → K} {thr dtd : K} {ei : K → Res Int} : ∀ (rs : List (Row K)) (i : Nat) (out : List (Option (Row K))),
    i + rs.length ≤ out.length → ∃ out', copyRows sq thr dtd ei [] i rs out = .ok out' ∧ out'.length = out.length
  | [], i, out, _ => ⟨out, rfl, rfl⟩
  | r :: rs, i, out, h => by
    rw [List.length_cons] at h
    obtain ⟨o, h1, h2⟩ := copyRows_total (sq := sq) (thr := thr) (dtd := dtd) (ei := ei) rs (i + 1) (out.set i (some r)) (by rw [List.length_set]; omega)
    refine ⟨o, ?_, by rw [h2, List.length_set]⟩
    unfold copyRows
    rw [if_neg (by omega)]
    have : copyRow sq thr dtd ei [] i r = .ok r := if_pos rfl
    rw [this, Res.bind_ok]
    exact h1

theorem spcSums_total {flux err : List K} (hl : flux.length = err.length) (hn : ∀ e ∈ err, e ≠ 0) : ∃ q, spcSums flux err = .ok q := by
  unfold spcSums
  rw [Res.tab_ok (h := fun (j : Nat) => 1 / (err.getD j 0 * err.getD j 0)) err.length (by
    intro j hj
    have : err[j] ≠ 0 := hn _ (List.getElem_mem hj)
    rw [Res.at_of_lt hj, Res.bind_ok, if_neg (mul_ne_zero this this), List.getD_eq_getElem _ _ hj]), Res.bind_ok]
  have H := Res.foldN_inv (f := fun j s => Res.at_ flux j >>= fun f => Res.at_ ((List.range err.length).map fun (j : Nat) => 1 / (err.getD j 0 * err.getD j 0)) j >>=
    fun i => .ok (s + f * f * i)) (fun _ _ => True) err.length 0 0 trivial (by
      intro k s _ hk _
      rw [Res.at_of_lt (by omega), Res.bind_ok, Res.at_of_lt (by rw [List.length_map, List.length_range]; omega), Res.bind_ok]
      exact ⟨_, rfl, trivial⟩)
  obtain ⟨d, e, -⟩ := H
  rw [e, Res.bind_ok]
  exact ⟨_, rfl⟩

/-- **C131**: on grids of the same logarithmic step, with redshifts of that step, a template that covers the spectrum at all of them, non null errors and a
redshift between two cuts, the fit without priors returns. -/
theorem C131_total [FloorRing K] {σ : Type} {sq lg : K → K} {est : Nat → σ → List K → List K → ℤ → Res (List K × σ)} {s0 : σ} (hest : EstOk est s0)
    (hsq : IsSqrt sq) {x : Ctx K} {step q l0 t0 : K} {m0 : Nat} {err bins axis base : List K} {hd hi : Bool} {ei : K → Res Int}
    {zs : List K} {t : Tpl.T K} {ext : Option (Int × Int × K × Int × Int)}
    (hfl : x.flux.length = x.spcAxis.length) (hel : err.length = x.spcAxis.length) (hen : ∀ e ∈ err, e ≠ 0)
    (ht : Tpl.Inv x.c axis hd hi t ⟨base, ext⟩) (hext : (x.igm || x.ism) = false → ext = none)
    (hne : x.ebmv ≠ []) (hnm : x.meiksin ≠ []) (hmax : x.c.igmMax ≤ 1216) (hR : ∀ z ∈ zs, Ready x hd hi z)
    (hbins : bins.Pairwise (· < ·)) (hbne : bins ≠ [])
    (hq : 1 < q) (hst : step ≠ 0) (hlg : ∀ m : ℤ, |lg (q ^ m) / step - m| < 1 / 2) (hl0 : 0 < l0) (ht0 : 0 < t0)
    (h2 : 2 ≤ x.spcAxis.length) (hzne : zs ≠ [])
    (hspc : ∀ (j : Nat) (w : K), x.spcAxis[j]? = some w → w = l0 * q ^ j) (htpl : ∀ (j : Nat) (w : K), axis[j]? = some w → w = t0 * q ^ j)
    (hz : ∀ (r : Nat) (z : K), zs[r]? = some z → 1 + z = l0 / (t0 * q ^ (m0 - r))) (hm : zs.length ≤ m0 + 1)
    (hcov : m0 + x.spcAxis.length ≤ axis.length)
    (hcuts : ∀ v v', IsCut x.igm l0 (zs.getD 0 0) (zs.getD (zs.length - 1) 0) bins v → IsCut x.igm l0 (zs.getD 0 0) (zs.getD (zs.length - 1) 0) bins v' →
      v < v' → ∃ z ∈ zs, v < z ∧ z ≤ v') :
    ∃ r, fitAllz sq lg est s0 x step err bins ei [] zs t = .ok r := by
  have hzp := List.length_pos_of_ne_nil hzne
  have hq0 : 0 < q := by linarith
  have hmono : ∀ a b : Nat, a < b → t0 * q ^ a < t0 * q ^ b := fun a b h => mul_lt_mul_of_pos_left (pow_lt_pow_right₀ hq h) ht0
  have hsax : axis.Pairwise (· ≤ ·) := by
    rw [List.pairwise_iff_getElem]
    intro i j h3 h4 hij
    rw [htpl i _ (List.getElem?_eq_getElem h3), htpl j _ (List.getElem?_eq_getElem h4)]
    exact (hmono i j hij).le
  have hzs : zs.Pairwise (· < ·) := by
    rw [List.pairwise_iff_getElem]
    intro i j h3 h4 hij
    have e1 := hz i _ (List.getElem?_eq_getElem h3)
    have e2 := hz j _ (List.getElem?_eq_getElem h4)
    have : l0 / (t0 * q ^ (m0 - i)) < l0 / (t0 * q ^ (m0 - j)) := by
      apply div_lt_div_of_pos_left hl0 (by positivity) (hmono _ _ (by omega))
    linarith
  have hs0' : x.spcAxis[0]? = some l0 := by
    rw [List.getElem?_eq_getElem (by omega), hspc 0 _ (List.getElem?_eq_getElem (by omega)), pow_zero, mul_one]
  have hf : zs[0]? = some (zs.getD 0 0) := by rw [List.getD_eq_getElem _ _ hzp]; exact List.getElem?_eq_getElem hzp
  have hb : zs[zs.length - 1]? = some (zs.getD (zs.length - 1) 0) := by
    rw [List.getD_eq_getElem _ _ (by omega)]; exact List.getElem?_eq_getElem (by omega)
  obtain ⟨rgs, e, hch, hin, -, hem⟩ := C129_ranges_partial (igm := x.igm) (spcAxis := x.spcAxis) (bins := bins) hzs hs0' hf hb hbins hbne
  have hnon : ∀ rg ∈ rgs, rg.1 ≤ rg.2 := by
    intro rg hr
    by_contra hc
    obtain ⟨v, v', a1, a2, a3, a4⟩ := hem.1 ⟨rg, hr, by omega⟩
    obtain ⟨z, b1, b2⟩ := hcuts v v' a1 a2 a3
    exact a4 z b1 b2
  have hsubeq : ∀ rg ∈ rgs, (if x.igm = true ∧ 1 < zs.length then (zs.take (rg.2 + 1).toNat).drop rg.1.toNat else zs) =
      (zs.take (rg.2 + 1).toNat).drop rg.1.toNat := by
    intro rg hr
    obtain ⟨p1, p2, p3, p4⟩ := hin rg hr
    by_cases c : x.igm = true ∧ 1 < zs.length
    · rw [if_pos c]
    · rw [if_neg c]
      have hone : rg = (0, (zs.length : Int) - 1) := by
        by_cases hl1 : zs.length = 1
        · have := hnon rg hr
          obtain ⟨a, b⟩ := rg
          simp only [] at this p1 p3 p4
          rw [Prod.mk.injEq]; omega
        · have hi : x.igm = false := by
            rcases Bool.eq_false_or_eq_true x.igm with hi | hi
            · exact absurd ⟨hi, by omega⟩ c
            · exact hi
          unfold findZRanges at e
          rw [hi, Res.at_of_lt hzp, Res.bind_ok, Res.at_of_lt (by omega : zs.length - 1 < zs.length), Res.bind_ok, if_neg (by simp), Res.bind_ok] at e
          cases e
          simpa [mkRanges] using hr
      rw [hone]
      rw [show ((zs.length : Int) - 1 + 1).toNat = zs.length by omega, List.take_length]
      rfl
  obtain ⟨⟨inv, dtd⟩, e2⟩ := spcSums_total (hfl.trans hel.symm) hen
  obtain ⟨-, s2, s3⟩ := spcSums_spec e2
  rw [hel] at s3
  unfold fitAllz
  rw [e, Res.bind_ok, e2, Res.bind_ok]
  have loop : ∀ (l : List (Int × Int)) (st : List (Option (Row K)) × Tpl.T K), (∀ rg ∈ l, rg ∈ rgs) → st.1.length = zs.length →
      (∃ ext, Tpl.Inv x.c axis hd hi st.2 ⟨base, ext⟩ ∧ ((x.igm || x.ism) = false → ext = none)) →
      ∃ r, allzLoop sq lg est s0 x step inv dtd ei [] zs l st = .ok r := by
    intro l
    induction l with
    | nil => exact fun st _ _ _ => ⟨st, rfl⟩
    | cons rg l ih =>
      rintro st hl hlen ⟨ext, hti, hei⟩
      have hr := hl rg (by simp)
      obtain ⟨p1, p2, p3, p4⟩ := hin rg hr
      have p5 := hnon rg hr
      have hsub := hsubeq rg hr
      have hstep : ∃ st', allzStep sq lg est s0 x step inv dtd ei [] zs rg st = .ok st' ∧ st'.1.length = zs.length := by
        unfold allzStep
        have g1 : zs[rg.1.toNat]? = some zs[rg.1.toNat] := List.getElem?_eq_getElem (by omega)
        have g2 : zs[rg.2.toNat]? = some zs[rg.2.toNat] := List.getElem?_eq_getElem (by omega)
        have a1 : Res.atZ zs rg.1 = .ok zs[rg.1.toNat] := by
          unfold Res.atZ; rw [if_neg (by omega)]; exact Res.at_eq_ok.2 g1
        have a2 : Res.atZ zs rg.2 = .ok zs[rg.2.toNat] := by
          unfold Res.atZ; rw [if_neg (by omega)]; exact Res.at_eq_ok.2 g2
        rw [a1, Res.bind_ok, a2, Res.bind_ok, if_neg (by omega)]
        simp only []
        rw [hsub, hti.axis_eq, C130_indices (q := q) (s0 := l0) (t0 := t0) (iB := m0 - rg.1.toNat) (iE := m0 - rg.2.toNat) hq0 hst hlg hl0 ht0 h2
          (by omega) hspc htpl (hz _ _ g1) (hz _ _ g2) (by omega), if_pos (by omega), Res.bind_ok]
        set sub := (zs.take (rg.2 + 1).toNat).drop rg.1.toNat with hsubdef
        have hsl : sub.length = (rg.2 - rg.1 + 1).toNat := by
          rw [hsubdef, List.length_drop, List.length_take]; omega
        have hsg : ∀ k : Nat, k < sub.length → sub[k]? = zs[rg.1.toNat + k]? := by
          intro k hk
          rw [hsubdef, List.getElem?_drop, List.getElem?_take_of_lt (by omega)]
        have hs00 : x.spcAxis.getD 0 0 = l0 := by rw [List.getD_eq_getElem?_getD, hs0']; rfl
        obtain ⟨rows, t', hfit⟩ := C128_total (rg := (((m0 - rg.2.toNat : Nat) : Int), ((m0 - rg.1.toNat : Nat) : Int) + x.spcAxis.length - 1)) (zs := sub)
          hest sq hfl hel hen s2 s3 hsax hti hei hnm (by intro h; rw [h] at h2; simp at h2) (by intro h; rw [h] at hsl; simp at hsl; omega)
          (by
            apply hR
            rw [List.getD_eq_getElem?_getD, hsg 0 (by omega), Nat.add_zero, g1]
            exact List.getElem_mem _)
          (by simp only []; omega) (by simp only []; omega) (by simp only []; omega)
          (by
            intro r z tl h3 h4
            simp only [] at h4
            have hrl : r < sub.length := (List.getElem?_eq_some_iff.1 h3).1
            rw [hsg r hrl] at h3
            have e3 := hz _ _ h3
            have e4 := htpl _ _ h4
            rw [hs00, e3, show m0 - (rg.1.toNat + r) = ((m0 - rg.2.toNat : Nat) : Int).toNat + (sub.length - 1 - r) by omega, ← e4, sub_self, abs_zero, zero_div]
            have : 0 < tl := by rw [e4]; positivity
            exact ⟨this, hl0, by positivity⟩)
        rw [hfit, Res.bind_ok]
        have hrl : rows.length = sub.length :=
          (C128_fit hest hsq hfl hel hen s2 s3 hsax hti hei hne hnm hmax hfit).1
        obtain ⟨out, o1, o2⟩ := copyRows_total (sq := sq) (thr := x.thr) (dtd := dtd) (ei := ei) rows rg.1.toNat st.1 (by rw [hrl, hlen]; omega)
        rw [o1, Res.bind_ok]
        exact ⟨_, rfl, o2.trans hlen⟩
      obtain ⟨st', e3, e4⟩ := hstep
      obtain ⟨q1, -⟩ := allzStep_spec hest hsq hfl hel hen s2 s3 hsax ⟨ext, hti, hei⟩ hne hnm hmax p1 p5 p4 hsub e3
      obtain ⟨r, hr'⟩ := ih st' (fun rg h => hl rg (List.mem_cons_of_mem _ h)) e4 q1
      refine ⟨r, ?_⟩
      unfold allzLoop
      rw [e3, Res.bind_ok]
      exact hr'
  exact loop rgs _ (fun _ h => h) (by rw [List.length_replicate]) ⟨ext, ht, hext⟩

/-! ## The prior -/

/-- **C131**: with a prior on the amplitude of positive width, strength and mean, the amplitude, its error and significance, the chi2 and the prior term are those
of the direct operator (`TplFit.amplChi2`, C64) for the sums of the chosen configuration. -/
theorem C131_prior_agrees (sq : K → K) (thr dtd : K) (p : Prior K) (b : Best K) (h1 : 0 < p.aSigma) (h2 : 0 < p.betaA) (h3 : 0 < p.aMean) (h4 : 0 < b.mtm) :
    ∃ (b' : Best K) (f : TplFit.Fit K), priorUpd sq thr dtd p b = .ok b' ∧ TplFit.amplChi2 sq thr p ⟨b.dtm, b.mtm, dtd⟩ = .ok f ∧
      b'.chi2 = f.chi2 ∧ b'.amp = f.ampl ∧ b'.ampErr = f.amplErr ∧ b'.ampSigma = f.amplSigma ∧ b'.logprior = f.logprior ∧
      b'.ebmv = b.ebmv ∧ b'.igm = b.igm := by
  unfold priorUpd TplFit.amplChi2
  simp only []
  rw [if_pos ⟨h1, h3⟩, if_neg (not_le.2 h4), if_neg h4.ne', if_neg (not_lt.2 h4.le)]
  simp only [h1, h2, decide_true, Bool.and_self, if_true]
  refine ⟨_, _, rfl, rfl, ?_, rfl, rfl, rfl, rfl, rfl, rfl⟩
  simp only []

/-- **C131**: the amplitude with the prior is that of the smallest sum of the chi2 and of the prior term, unless it is set to zero for its significance. -/
theorem C131_prior_minimum (sq : K → K) (thr dtd : K) (p : Prior K) (b b' : Best K) (h1 : 0 < p.aSigma) (h2 : 0 ≤ p.betaA) (h3 : 0 < p.aMean)
    (h4 : 0 < b.mtm) (h : priorUpd sq thr dtd p b = .ok b') :
    (b'.ampSigma < thr → b'.amp = 0) ∧
    b'.chi2 = dtd - 2 * b'.amp * b.dtm + b'.amp ^ 2 * b.mtm + p.betaA * ((b'.amp - p.aMean) / p.aSigma) ^ 2 -
      2 * (p.betaTE * p.precompTE + p.betaA * p.precompA + p.betaZ * p.precompZ) ∧
    (thr ≤ b'.ampSigma → ∀ a : K, dtd - 2 * b'.amp * b.dtm + b'.amp ^ 2 * b.mtm + p.betaA * ((b'.amp - p.aMean) / p.aSigma) ^ 2 ≤
      dtd - 2 * a * b.dtm + a ^ 2 * b.mtm + p.betaA * ((a - p.aMean) / p.aSigma) ^ 2) := by
  unfold priorUpd at h
  simp only [] at h
  rw [if_pos ⟨h1, h3⟩, if_neg (not_le.2 h4)] at h
  injection h with h
  subst h
  simp only []
  refine ⟨fun h => if_pos h, by rw [div_pow]; ring, fun h a => ?_⟩
  rw [if_neg (not_lt.2 h)]
  have hs2 : 0 < p.aSigma * p.aSigma := by positivity
  set w := p.betaA / (p.aSigma * p.aSigma) with hw
  have hw0 : 0 ≤ w := by rw [hw]; positivity
  have hD : 0 < b.mtm + w := by linarith
  have key : (if 0 < p.betaA then (b.dtm + p.aMean * w) / (b.mtm + w) else b.dtm / b.mtm) = (b.dtm + p.aMean * w) / (b.mtm + w) := by
    split
    · rfl
    · rename_i hc
      have : p.betaA = 0 := le_antisymm (not_lt.1 hc) h2
      have : w = 0 := by rw [hw, this, zero_div]
      rw [this]; simp
  rw [key]
  have hq : ∀ y : K, p.betaA * ((y - p.aMean) / p.aSigma) ^ 2 = w * (y - p.aMean) ^ 2 := by
    intro y; rw [hw]; field_simp
  rw [hq, hq]
  set a0 := (b.dtm + p.aMean * w) / (b.mtm + w) with ha0
  have e0 : a0 * (b.mtm + w) = b.dtm + p.aMean * w := by rw [ha0]; field_simp
  have : dtd - 2 * a * b.dtm + a ^ 2 * b.mtm + w * (a - p.aMean) ^ 2 - (dtd - 2 * a0 * b.dtm + a0 ^ 2 * b.mtm + w * (a0 - p.aMean) ^ 2) =
      (b.mtm + w) * (a - a0) ^ 2 := by
    have hb : b.dtm = a0 * (b.mtm + w) - p.aMean * w := by linarith
    rw [hb]; ring
  have h5 : 0 ≤ (b.mtm + w) * (a - a0) ^ 2 := by positivity
  linarith

/-- **C131**: without amplitude prior (no width or no positive mean), the constant terms of the prior are added to the chi2, and the amplitude is unchanged. -/
theorem C131_prior_constant (sq : K → K) (thr dtd : K) (p : Prior K) (b : Best K) (h : p.aSigma ≤ 0 ∨ p.aMean ≤ 0) :
    ∃ b' : Best K, priorUpd sq thr dtd p b = .ok b' ∧ b'.chi2 = b.chi2 - 2 * (p.betaTE * p.precompTE + p.betaA * p.precompA + p.betaZ * p.precompZ) ∧
      b'.logprior = -2 * (p.betaTE * p.precompTE + p.betaA * p.precompA + p.betaZ * p.precompZ) ∧ b'.amp = b.amp ∧ b'.ampErr = b.ampErr ∧
      b'.ampSigma = b.ampSigma ∧ b'.ebmv = b.ebmv ∧ b'.igm = b.igm := by
  unfold priorUpd
  simp only []
  rw [if_neg (by rintro ⟨h1, h2⟩; rcases h with h | h <;> linarith)]
  refine ⟨_, rfl, ?_, ?_, rfl, rfl, rfl, rfl, rfl⟩ <;> simp only [] <;> ring

/-- **C131**: with a prior of negative mean, or without strength on the amplitude, the two operators do not agree: the first keeps the amplitude without the prior (here 1
instead of 0), the second adds the other terms of the prior that the direct operator leaves out (here 4). -/
theorem C131_prior_differs_counterexample :
    (priorUpd (fun v => v) (-9) 5 ⟨1, -1, 1, 0, 0, 0, 0, 0⟩ ⟨4, 1, 1, 1, 1, 1, 1, -1, -1, 0⟩ >>= fun b => .ok (b.amp, b.chi2)) = .ok (1, (4 : ℚ)) ∧
    (TplFit.amplChi2 (fun v => v) (-9) ⟨1, -1, 1, 0, 0, 0, 0, 0⟩ ⟨1, 1, 5⟩ >>= fun f => .ok (f.ampl, f.chi2)) = .ok (0, (6 : ℚ)) ∧
    (priorUpd (fun v => v) (-9) 5 ⟨1, 1, 0, 1, 0, 0, -2, 0⟩ ⟨4, 1, 1, 1, 1, 1, 1, -1, -1, 0⟩ >>= fun b => .ok (b.amp, b.chi2)) = .ok (1, (8 : ℚ)) ∧
    (TplFit.amplChi2 (fun v => v) (-9) ⟨1, 1, 0, 1, 0, 0, -2, 0⟩ ⟨1, 1, 5⟩ >>= fun f => .ok (f.ampl, f.chi2)) = .ok (1, (4 : ℚ)) := by
  decide +kernel

/-! ## A case with priors -/

/-- The logarithm in base 2 of the numbers of the case. -/
def lg2 (v : ℚ) : ℚ := if v = 1 then 0 else if v = 2 then 1 else if v = 4 then 2 else if v = 8 then 3 else 0

/-- The dust curves of `exCtx`, without IGM. -/
def exCtx2 : Ctx ℚ := { exCtx with igm := false, meiksin := [-1] }

/-- The fit of three redshifts without and with priors, one for each redshift and dust: that of the dusty fits is unfavourable. -/
def exPriors : List (List (Prior ℚ)) := [[⟨1, 1, 0, 1, 0, 0, 0, 0⟩, ⟨1, 1, 0, 1, 0, 0, -50, 0⟩], [⟨1, 1, 0, 1, 0, 0, 0, 0⟩, ⟨1, 1, 0, 1, 0, 0, -50, 0⟩],
  [⟨1, 1, 0, 1, 0, 0, 0, 0⟩, ⟨1, 1, 0, 1, 0, 0, -50, 0⟩]]

def exAll (priors : List (List (Prior ℚ))) : Res (List (Option (Row ℚ)) × Tpl.T ℚ) :=
  fitAllz (fun v => v) lg2 direct () exCtx2 1 exErr [0, 10] (fun v => .ok (if v = 1 then 1 else 0)) priors [1, 3, 7] exTpl

/-- The result for each redshift: chi2 and E(B-V). -/
def exShow (r : Res (List (Option (Row ℚ)) × Tpl.T ℚ)) : Res (List (Option (ℚ × ℚ))) :=
  r >>= fun r => .ok (r.1.map fun o => o.bind fun q => q.best.map fun b => (b.chi2, b.ebmv))

/-- Three redshifts without and with priors. -/
example : exShow (exAll []) = .ok [some (189 / 38, 0), some (164 / 57, 1), some (5 / 9, 0)] := by decide +kernel

/-- **C131**: the configuration is chosen before the prior is added: at the second redshift the fit with dust is reported, of chi2 5864/57 with its prior, and the chi2 of
the fit without dust, of null prior, is 116/33. -/
theorem C131_choice_ignores_prior_counterexample : exShow (exAll exPriors) = .ok [some (189 / 38, 0), some (5864 / 57, 1), some (5 / 9, 0)] ∧
    (exAll exPriors >>= fun r => .ok (r.1.map fun o => (o.bind fun q => get2 q.tbl 0 0).bind id)) =
      .ok [some (189 / 38), some (116 / 33), some (5 / 9)] := by decide +kernel

/-- The fit of three redshifts with dust, IGM, the square root, the logarithm and the correlation by FFT: the hypotheses of `C131_total` are met, and those
of `C131_fit_partial` with them. -/
noncomputable example : ∃ r, fitAllz Real.sqrt Real.log Fft.estimateXtY Fft.Cache.init
    (⟨[4800, 9600, 19200], [2, 4, 5], ⟨fun _ w => .ok (if 3000 < w then 1 / 2 else 1), fun _ => some 0, fun _ _ _ => .ok (1 / 2), 1216⟩, fun k => k + 1, true, true,
      -1000, [0], [-1, 0]⟩ : Ctx ℝ) (Real.log 2) [1, 1, 1] [0, 10] (fun _ => .ok 0) [] [1, 3, 7] (Tpl.make [600, 1200, 2400, 4800, 9600] [2, 4, 4, 10, 6] true true) =
    .ok r := by
  refine C131_total C128_fft (fun v h => ⟨Real.sqrt_nonneg v, Real.mul_self_sqrt h⟩) (q := 2) (l0 := 4800) (t0 := 600) (m0 := 2)
    (axis := [600, 1200, 2400, 4800, 9600]) (base := [2, 4, 4, 10, 6]) (hd := true) (hi := true) (ext := none) rfl rfl (by simp)
    ⟨rfl, rfl, rfl, rfl, rfl, fun _ => ⟨rfl, rfl⟩, fun _ _ _ _ _ h => by cases h⟩ (by simp) (by simp) (by simp) le_rfl
    (fun z _ => ⟨fun _ => rfl, fun _ => rfl, fun _ k _ _ w => ⟨_, rfl⟩, fun _ => ⟨0, rfl, fun i _ _ w => ⟨_, rfl⟩⟩⟩) (by simp) (by simp) (by norm_num)
    (Real.log_pos (by norm_num)).ne' (C130_log (by norm_num)) (by norm_num) (by norm_num) (by simp) (by simp) ?_ ?_ ?_ (by simp) (by simp) ?_
  · intro j w h
    have : j < 3 := (List.getElem?_eq_some_iff.1 h).1
    interval_cases j <;> simp at h <;> subst h <;> norm_num
  · intro j w h
    have : j < 5 := (List.getElem?_eq_some_iff.1 h).1
    interval_cases j <;> simp at h <;> subst h <;> norm_num
  · intro j w h
    have : j < 3 := (List.getElem?_eq_some_iff.1 h).1
    interval_cases j <;> simp at h <;> subst h <;> norm_num
  · rintro v v' ⟨-, h1, h2, h3⟩ ⟨-, h1', h2', h3'⟩ hlt
    exfalso
    simp at h1 h2 h3 h1' h2' h3'
    rcases h3 with h3 | ⟨h3, -⟩ <;> rcases h3' with h3' | ⟨h3', -⟩ <;> linarith

end TplLog
end Amazed
