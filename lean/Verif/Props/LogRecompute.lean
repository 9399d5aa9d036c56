import Verif.Props.LogRebinReuse

/-! # C61: more precise wavelengths of a log-sampled spectrum (`RecomputePreciseLoglambda`) -/

set_option linter.unusedSectionVars false
set_option linter.unusedVariables false

namespace Amazed
namespace LogRebin

open Classical

noncomputable section

theorem logLoop_eq_true {s0 : ℝ} : ∀ {x : ℝ} {l : List ℝ},
    (∀ i (h : i + 1 < (x :: l).length), 0 < (x :: l)[i + 1] / (x :: l)[i] ∧
      SAxis.badStep s0 (Real.log ((x :: l)[i + 1] / (x :: l)[i])) = false) → SAxis.logLoop s0 x l = .ok true
  | x, [], _ => rfl
  | x, y :: l, h => by
    unfold SAxis.logLoop
    obtain ⟨h0, h1⟩ := h 0 (by simp)
    simp only [List.getElem_cons_succ, List.getElem_cons_zero] at h0 h1
    rw [if_pos h0, h1]
    simp only [Bool.false_eq_true, if_false]
    exact logLoop_eq_true (fun i hi => h (i + 1) (by simpa using hi))

theorem meanBias_spec (new old : List ℝ) (f : ℕ → ℤ) (bs : ℕ) (hbs : 0 < bs) (c r : ℝ)
    (h : ∀ k, k < bs → ∃ a b, Res.atZ new (f k) = .ok a ∧ Res.atZ old (f k) = .ok b ∧ 0 < a ∧ 0 < b ∧
      |Real.log (a / b) - c| ≤ r) :
    ∃ m, meanBias new old f bs = .ok m ∧ |m - c| ≤ r := by
  have hloop := Res.foldN_inv (f := fun k acc =>
      Res.atZ new (f k) >>= fun a =>
      Res.atZ old (f k) >>= fun b =>
      if b = 0 then .ub else clog (a / b) >>= fun v => .ok (acc + v))
    (fun k s => |s - k * c| ≤ k * r) bs 0 (0 : ℝ) (by simp) (by
      intro i s _ hi hs
      obtain ⟨a, b, h1, h2, h3, h4, h5⟩ := h i (by omega)
      refine ⟨s + Real.log (a / b), ?_, ?_⟩
      · simp only [h1, h2, Res.bind_ok]
        rw [if_neg h4.ne', clog_pos (div_pos h3 h4)]
        rfl
      · push_cast
        rw [abs_le] at hs h5 ⊢
        constructor <;> linarith [hs.1, hs.2, h5.1, h5.2])
  obtain ⟨s, hs1, hs2⟩ := hloop
  have hb : (0 : ℝ) < bs := by exact_mod_cast hbs
  refine ⟨s / bs, ?_, ?_⟩
  · unfold meanBias
    rw [hs1]
    simp only [Res.bind_ok]
    rw [if_neg (by omega)]
  · rw [Nat.zero_add] at hs2
    have : s / bs - c = (s - bs * c) / bs := by field_simp
    rw [this, abs_div, abs_of_pos hb, div_le_iff₀ hb]
    linarith

/-- `l` is the logarithmic grid `b·exp(i·s)` with an error of at most `δ` on the logarithm of each sample (rounded values). -/
def RoundedGrid (l : List ℝ) (b s δ : ℝ) : Prop :=
  ∀ i (h : i < l.length), 0 < l[i] ∧ |Real.log l[i] - (Real.log b + i * s)| ≤ δ

theorem roundedGrid_isLog (l : List ℝ) (b s δ : ℝ) (hs : 0 < s) (hδ : 42 * δ ≤ s) (h2 : 2 ≤ l.length)
    (hg : RoundedGrid l b s δ) : ∃ a, (SAxis.ofList l).isLogSampled = .ok (true, a) := by
  have hstep : ∀ i (h : i + 1 < l.length), 0 < l[i + 1] / l[i] ∧ |Real.log (l[i + 1] / l[i]) - s| ≤ 2 * δ := by
    intro i h
    obtain ⟨p0, e0⟩ := hg i (by omega)
    obtain ⟨p1, e1⟩ := hg (i + 1) h
    refine ⟨div_pos p1 p0, ?_⟩
    rw [Real.log_div p1.ne' p0.ne']
    push_cast at e1
    rw [abs_le] at e0 e1 ⊢
    constructor <;> linarith [e0.1, e0.2, e1.1, e1.2]
  match l, h2, hstep with
  | x :: y :: t, _, hstep =>
    have h0 := hstep 0 (by simp)
    simp only [zero_add, List.getElem_cons_succ, List.getElem_cons_zero] at h0
    have h0' := abs_le.1 h0.2
    have hpos : 0 < Real.log (y / x) := by linarith
    have hall : SAxis.logLoop (Real.log (y / x)) x (y :: t) = .ok true := by
      refine logLoop_eq_true (fun i hi => ⟨(hstep i hi).1, ?_⟩)
      have h1 := abs_le.1 (hstep i hi).2
      unfold SAxis.badStep
      rw [if_neg hpos.ne']
      simp only [gt_iff_lt, decide_eq_false_iff_not, not_lt]
      rw [abs_div, abs_of_pos hpos, div_le_iff₀ hpos, abs_le]
      constructor <;> linarith
    refine ⟨⟨x :: y :: t, none, some true⟩, ?_⟩
    unfold SAxis.isLogSampled SAxis.ofList SAxis.checkLog
    simp only
    rw [if_pos h0.1, hall]
    rfl

theorem regularStep_spec (l : List ℝ) (n : ℕ) (hn : l.length = n + 1) (h1 : 1 ≤ n) (h0 : (0 : ℝ) < l[0]) (hl : 0 < l[n]) :
    n * regularStep l = Real.log l[n] - Real.log l[0] ∧
    SAxis.lambdaRange l = ⟨l[0], l[0] * Real.exp (n * regularStep l)⟩ := by
  have hidx : l.length - 1 = n := by omega
  have hnc : (l.length : ℝ) - 1 = n := by rw [hn]; push_cast; ring
  have hnpos : (0 : ℝ) < n := by exact_mod_cast h1
  have e1 : n * regularStep l = Real.log l[n] - Real.log l[0] := by
    unfold regularStep
    rw [dif_neg (by omega)]
    simp only [hidx]
    rw [Real.log_div hl.ne' h0.ne', hnc]
    field_simp
  refine ⟨e1, ?_⟩
  unfold SAxis.lambdaRange
  rw [dif_neg (by omega), e1]
  simp only [hidx]
  congr 1
  rw [Real.exp_sub, Real.exp_log h0, Real.exp_log hl]
  field_simp

set_option maxHeartbeats 1000000 in
/-- **C61.** The recomputed axis of a log-sampled axis whose samples are rounded is an exact logarithmic grid with the same
number of samples, and every sample is within three rounding errors of the true grid; in particular an exact grid is left
unchanged. -/
theorem C61_recompute (l : List ℝ) (b s δ : ℝ) (hb : 0 < b) (hs : 0 < s) (hs1 : s ≤ 1) (hδ0 : 0 ≤ δ) (hδ : 42 * δ ≤ s)
    (hg : RoundedGrid l b s δ) (hlen : 301 ≤ l.length) (heps : 2 * eps ≤ b * s) :
    ∃ v st, recompute l = .ok (v, st) ∧ v.length = l.length ∧ 0 < st ∧
      (∃ c, 0 < c ∧ ∀ (i : ℕ) x, v[i]? = some x → x = c * Real.exp (i * st)) ∧
      (∀ (i : ℕ) x, v[i]? = some x → |Real.log x - (Real.log b + i * s)| ≤ 3 * δ) := by
  obtain ⟨ax, hax⟩ := roundedGrid_isLog l b s δ hs hδ (by omega) hg
  obtain ⟨n, hn⟩ : ∃ n : ℕ, l.length = n + 1 := ⟨l.length - 1, by omega⟩
  have hn300 : (300 : ℝ) ≤ n := by
    have : 300 ≤ n := by omega
    exact_mod_cast this
  have hnpos : (0 : ℝ) < n := by linarith
  -- the errors
  set e : ℕ → ℝ := fun i => if h : i < l.length then Real.log l[i] - (Real.log b + i * s) else 0 with he
  have hlog : ∀ i (h : i < l.length), Real.log l[i] = Real.log b + i * s + e i := by
    intro i h; simp only [he]; rw [dif_pos h]; ring
  have hE : ∀ i, |e i| ≤ δ := by
    intro i
    simp only [he]
    split
    · rename_i h; exact (hg i h).2
    · simpa using hδ0
  have hpos : ∀ i (h : i < l.length), 0 < l[i] := fun i h => (hg i h).1
  have hp0 := hpos 0 (by omega)
  have hpn := hpos n (by omega)
  have hl0 := hlog 0 (by omega)
  have hln := hlog n (by omega)
  simp only [Nat.cast_zero, zero_mul, add_zero] at hl0
  have E0 := abs_le.1 (hE 0)
  have En := abs_le.1 (hE n)
  have hidx : l.length - 1 = n := by omega
  -- the first grid
  set σ := regularStep l with hσ
  obtain ⟨hreg, hrange⟩ := regularStep_spec l n hn (by omega) hp0 hpn
  rw [← hσ] at hreg hrange
  have hσn : n * σ = n * s + e n - e 0 := by rw [hreg, hln, hl0]; ring
  have hσ1 : s * (9 / 10) ≤ σ := by
    by_contra hlt
    have h1 : n * σ < n * (s * (9 / 10)) := mul_lt_mul_of_pos_left (not_le.1 hlt) hnpos
    nlinarith
  have hσpos : 0 < σ := by nlinarith
  have hb9 : ∀ t : ℝ, |t - Real.log b| ≤ 3 * δ → b * (9 / 10) ≤ Real.exp t := by
    intro t ht
    have h1 := abs_le.1 ht
    have h2 : Real.log b - 3 * δ ≤ t := by linarith
    have h3 := Real.exp_le_exp.2 h2
    rw [Real.exp_sub, Real.exp_log hb] at h3
    have h4 : 1 - 3 * δ ≤ Real.exp (-(3 * δ)) := by have := Real.add_one_le_exp (-(3 * δ)); linarith
    have h5 : b / Real.exp (3 * δ) = b * Real.exp (-(3 * δ)) := by rw [Real.exp_neg]; rfl
    rw [h5] at h3
    nlinarith
  have hepsσ : eps < l[0] * σ := by
    have h1 := hb9 (Real.log l[0]) (by rw [hl0, abs_le]; constructor <;> linarith)
    rw [Real.exp_log hp0] at h1
    have h2 : b * (9 / 10) * (s * (9 / 10)) ≤ l[0] * σ := mul_le_mul h1 hσ1 (by positivity) hp0.le
    have h3 : 0 < b * s := by positivity
    nlinarith
  have hspread := spread_geom l[0] σ n hp0 hσpos hepsσ
  -- the biases
  set bs : ℤ := min 100 (((l.length : ℤ) - 1) / 10) with hbs
  have hbs30 : 30 ≤ bs := by omega
  have hbs100 : bs.toNat ≤ n := by omega
  have hnew : ∀ i : ℕ, i ≤ n → Res.atZ (geom l[0] σ (n + 1)) (i : ℤ) = .ok (l[0] * Real.exp (i * σ)) := by
    intro i hi
    rw [Meiksin.atZ_nat, Res.at_eq_ok]
    exact geom_get _ _ _ _ (by omega)
  have hterm : ∀ i : ℕ, i ≤ n → ∃ a c, Res.atZ (geom l[0] σ (n + 1)) (i : ℤ) = .ok a ∧ Res.atZ l (i : ℤ) = .ok c ∧
      0 < a ∧ 0 < c ∧ Real.log (a / c) = e 0 + (i / n) * (e n - e 0) - e i := by
    intro i hi
    refine ⟨_, l[i], hnew i hi, by rw [Meiksin.atZ_nat]; exact Res.at_of_lt (by omega), by positivity, hpos i (by omega), ?_⟩
    rw [Real.log_div (by positivity) (hpos i (by omega)).ne', Real.log_mul hp0.ne' (Real.exp_pos _).ne', Real.log_exp, hl0,
      hlog i (by omega)]
    have : (i : ℝ) * σ = i * s + (i / n) * (e n - e 0) := by
      have h1 : σ = s + (e n - e 0) / n := by field_simp; linarith
      rw [h1]; field_simp
    rw [this]; ring
  have hfrac : ∀ i : ℕ, i ≤ n → 0 ≤ (i : ℝ) / n ∧ (i : ℝ) / n ≤ 1 := by
    intro i hi
    have : (i : ℝ) ≤ n := by exact_mod_cast hi
    exact ⟨by positivity, by rw [div_le_one hnpos]; exact this⟩
  obtain ⟨m0, hm0, hm0'⟩ := meanBias_spec (geom l[0] σ (n + 1)) l (fun k => (k : ℤ)) bs.toNat (by omega) (e 0) (3 * δ) (by
    intro k hk
    obtain ⟨a, c, h1, h2, h3, h4, h5⟩ := hterm k (by omega)
    refine ⟨a, c, h1, h2, h3, h4, ?_⟩
    obtain ⟨f0, f1⟩ := hfrac k (by omega)
    have Ek := abs_le.1 (hE k)
    rw [h5, abs_le]
    constructor <;> nlinarith)
  obtain ⟨m1, hm1, hm1'⟩ := meanBias_spec (geom l[0] σ (n + 1)) l (fun k => ((l.length : ℤ) - 1) - (k : ℤ)) bs.toNat (by omega)
    (e n) (3 * δ) (by
    intro k hk
    have hidx' : ((l.length : ℤ) - 1) - (k : ℤ) = ((n - k : ℕ) : ℤ) := by omega
    simp only [hidx']
    obtain ⟨a, c, h1, h2, h3, h4, h5⟩ := hterm (n - k) (by omega)
    refine ⟨a, c, h1, h2, h3, h4, ?_⟩
    obtain ⟨f0, f1⟩ := hfrac k (by omega)
    have hc : ((n - k : ℕ) : ℝ) / n = 1 - k / n := by
      rw [Nat.cast_sub (by omega)]; field_simp
    have Ek := abs_le.1 (hE (n - k))
    rw [h5, hc, abs_le]
    constructor <;> nlinarith)
  -- the second grid
  have hM0 := abs_le.1 hm0'
  have hM1 := abs_le.1 hm1'
  set n0 := Real.log l[0] - m0 with hn0
  set n1 := Real.log (l[0] * Real.exp (n * σ)) - m1 with hn1
  have hlend : Real.log (l[0] * Real.exp (n * σ)) = Real.log b + n * s + e n := by
    rw [Real.log_mul hp0.ne' (Real.exp_pos _).ne', Real.log_exp, hl0, hσn]; ring
  have hN0 : |n0 - Real.log b| ≤ 3 * δ := by rw [hn0, hl0, abs_le]; constructor <;> linarith
  have hN1 : |n1 - (Real.log b + n * s)| ≤ 3 * δ := by rw [hn1, hlend, abs_le]; constructor <;> linarith
  have B0 := abs_le.1 hN0
  have B1 := abs_le.1 hN1
  set st := (n1 - n0) / (((l.length : ℤ) - 1 : ℤ) : ℝ) with hst
  have hcast : (((l.length : ℤ) - 1 : ℤ) : ℝ) = n := by rw [hn]; push_cast; ring
  have hstn : n * st = n1 - n0 := by rw [hst, hcast]; field_simp
  have hst1 : s * (9 / 10) ≤ st := by
    by_contra hlt
    have h1 : n * st < n * (s * (9 / 10)) := mul_lt_mul_of_pos_left (not_le.1 hlt) hnpos
    nlinarith
  have hstpos : 0 < st := by nlinarith
  have hepsst : eps < Real.exp n0 * st := by
    have h2 : b * (9 / 10) * (s * (9 / 10)) ≤ Real.exp n0 * st :=
      mul_le_mul (hb9 n0 hN0) hst1 (by positivity) (Real.exp_pos _).le
    have h3 : 0 < b * s := by positivity
    nlinarith
  have hr2 : (⟨Real.exp n0, Real.exp n1⟩ : Range ℝ) = ⟨Real.exp n0, Real.exp n0 * Real.exp (n * st)⟩ := by
    rw [← Real.exp_add, hstn]; congr 2; ring
  have hspread2 := spread_geom (Real.exp n0) st n (Real.exp_pos _) hstpos hepsst
  refine ⟨geom (Real.exp n0) st (n + 1), st, ?_, by rw [geom_length, hn], hstpos, ⟨Real.exp n0, Real.exp_pos _, ?_⟩, ?_⟩
  · unfold recompute
    rw [hax]
    simp only [Res.bind_ok, Bool.true_eq_false, if_false]
    rw [hrange, hspread]
    simp only [Res.bind_ok]
    rw [if_neg (by rw [← hbs]; omega), ← hbs, hm0, hm1]
    simp only [Res.bind_ok]
    rw [clog_pos hp0, clog_pos (by positivity)]
    simp only [Res.bind_ok]
    rw [← hn0, ← hn1, ← hst, hr2, hspread2]
    rfl
  · intro i x hx
    have hi : i < n + 1 := by have := (List.getElem?_eq_some_iff.1 hx).1; rwa [geom_length] at this
    rw [geom_get _ _ _ _ hi] at hx
    cases hx; rfl
  · intro i x hx
    have hi : i < n + 1 := by have := (List.getElem?_eq_some_iff.1 hx).1; rwa [geom_length] at this
    rw [geom_get _ _ _ _ hi] at hx
    cases hx
    rw [← Real.exp_add, Real.log_exp]
    obtain ⟨f0, f1⟩ := hfrac i (by omega)
    have h1 : (i : ℝ) * st = (i / n) * (n1 - n0) := by rw [← hstn]; field_simp
    have h2 : (i : ℝ) * s = (i / n) * (n * s) := by field_simp
    rw [h1, h2, abs_le]
    constructor <;> nlinarith

/-- **C61, refusals.** An axis that is not log-sampled is refused, and so is a log-sampled axis with less than 301 samples. -/
theorem C61_recompute_refused (l : List ℝ) :
    ((∃ a, (SAxis.ofList l).isLogSampled = .ok (false, a)) → recompute l = .throw .INTERNAL_ERROR) ∧
    (∀ b s δ, 0 < b → 0 < s → s ≤ 1 → 0 ≤ δ → 42 * δ ≤ s → RoundedGrid l b s δ → 2 ≤ l.length → l.length < 301 → 2 * eps ≤ b * s →
      recompute l = .throw .INTERNAL_ERROR) := by
  constructor
  · rintro ⟨a, ha⟩
    unfold recompute
    rw [ha]
    rfl
  · intro b s δ hb hs hs1 hδ0 hδ hg h2 h301 heps
    obtain ⟨ax, hax⟩ := roundedGrid_isLog l b s δ hs hδ h2 hg
    obtain ⟨n, hn⟩ : ∃ n : ℕ, l.length = n + 2 := ⟨l.length - 2, by omega⟩
    have hidx : l.length - 1 = n + 1 := by omega
    obtain ⟨hp0, e0⟩ := hg 0 (by omega)
    obtain ⟨hpn, en⟩ := hg (n + 1) (by omega)
    have hn1 : (0 : ℝ) < (n : ℝ) + 1 := by positivity
    obtain ⟨hreg, hrange⟩ := regularStep_spec l (n + 1) hn (by omega) hp0 hpn
    simp only [Nat.cast_zero, zero_mul, add_zero] at e0
    have E0 := abs_le.1 e0
    have En := abs_le.1 en
    push_cast at En hreg
    have hσ1 : s * (9 / 10) ≤ regularStep l := by
      by_contra hlt
      have h1 := mul_lt_mul_of_pos_left (not_le.1 hlt) hn1
      have h0n : (0 : ℝ) ≤ n * s := by positivity
      nlinarith
    have hσpos : 0 < regularStep l := by nlinarith
    have hb9 : b * (9 / 10) ≤ l[0] := by
      have h2 : Real.log b - δ ≤ Real.log l[0] := by linarith
      have h3 := Real.exp_le_exp.2 h2
      rw [Real.exp_sub, Real.exp_log hb, Real.exp_log hp0] at h3
      have h4 : 1 - δ ≤ Real.exp (-δ) := by have := Real.add_one_le_exp (-δ); linarith
      have h5 : b / Real.exp δ = b * Real.exp (-δ) := by rw [Real.exp_neg]; rfl
      rw [h5] at h3
      nlinarith
    have hepsσ : eps < l[0] * regularStep l := by
      have h2 : b * (9 / 10) * (s * (9 / 10)) ≤ l[0] * regularStep l := mul_le_mul hb9 hσ1 (by positivity) hp0.le
      have h3 : 0 < b * s := by positivity
      nlinarith
    unfold recompute
    rw [hax]
    simp only [Res.bind_ok, Bool.true_eq_false, if_false]
    rw [hrange, spread_geom l[0] (regularStep l) (n + 1) hp0 hσpos hepsσ]
    simp only [Res.bind_ok]
    rw [if_pos (by omega)]

/-- The hypotheses are met by an exact grid of 301 samples, which is left unchanged. -/
example : ∃ v st, recompute (geom 1000 (1 / 1000) 301) = .ok (v, st) ∧ v.length = 301 ∧
    ∀ (i : ℕ) x, v[i]? = some x → x = 1000 * Real.exp (i * (1 / 1000)) := by
  obtain ⟨v, st, h1, h2, _, ⟨c, hc, h3⟩, h4⟩ := C61_recompute (geom 1000 (1 / 1000) 301) 1000 (1 / 1000) 0 (by norm_num) (by norm_num)
    (by norm_num) le_rfl (by norm_num) (by
      intro i h
      rw [geom_getElem]
      refine ⟨by positivity, ?_⟩
      rw [Real.log_mul (by norm_num) (Real.exp_pos _).ne', Real.log_exp]
      simp) (by simp) (by norm_num [eps])
  refine ⟨v, st, h1, by simpa using h2, fun i x hx => ?_⟩
  have h5 := h4 i x hx
  have h6 : Real.log x = Real.log 1000 + i * (1 / 1000) := by
    have := abs_nonpos_iff.1 (le_trans h5 (by norm_num)); linarith
  have hx0 : 0 < x := by rw [h3 i x hx]; positivity
  rw [← Real.exp_log hx0, h6, Real.exp_add, Real.exp_log (by norm_num)]

end
end LogRebin
end Amazed
