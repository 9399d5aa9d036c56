import Verif.Model.SymIgm
import Verif.Props.LineProfileProps
import Verif.Props.MeiksinProps
import Verif.Props.FluxAxisProps

/-! # C59: the line profile absorbed by the intergalactic medium -/

namespace Amazed
namespace SymIgm

open Real

/-- The Gaussian profile. -/
noncomputable def gauss (x x0 sigma : ℝ) : ℝ := exp (-(1 / 2) * ((x - x0) / sigma) * ((x - x0) / sigma))

theorem symVal_eq (x x0 : ℝ) {sigma : ℝ} (h : sigma ≠ 0) : Profile.symVal x x0 sigma = .ok (gauss x x0 sigma) := by
  unfold Profile.symVal gauss; rw [if_neg h]

/-- **C59.** Without extinction tables everything is refused; before a redshift is set, or once the fitted parameters are
reset, nothing can be evaluated. -/
theorem C59_not_ready (p : P) (x x0 sigma A : ℝ) :
    (p.igm = none → val p x x0 sigma = .throw .INTERNAL_ERROR ∧ derivSigma p x x0 sigma = .throw .INTERNAL_ERROR ∧
      derivX0 p x x0 sigma = .throw .INTERNAL_ERROR ∧ flux p x0 sigma A = .throw .INTERNAL_ERROR) ∧
    (∀ m, p.igm = some m → p.fit = true →
      val (reset p) x x0 sigma = .ub ∧ derivSigma (reset p) x x0 sigma = .ub ∧ derivX0 (reset p) x x0 sigma = .ub ∧
      flux (reset p) x0 sigma A = .ub) ∧
    (p.fit = false → reset p = p) := by
  refine ⟨fun h => ?_, fun m h hf => ?_, fun h => ?_⟩
  · have : init p = .throw .INTERNAL_ERROR := by unfold init; rw [h]
    unfold val derivSigma derivX0 flux
    rw [this]
    exact ⟨rfl, rfl, rfl, rfl⟩
  · have : init (reset p) = .ub := by unfold init reset setParams; rw [if_pos hf]; simp only [h]
    unfold val derivSigma derivX0 flux
    rw [this]
    exact ⟨rfl, rfl, rfl, rfl⟩
  · unfold reset; rw [h]; rfl

theorem init_eq {p : P} {m : Meiksin.T ℝ} {z : ℝ} (hm : p.igm = some m) (hz : p.z = some z) : init p = .ok (m, z) := by
  unfold init; rw [hm, hz]

/-- **C59.** The value is the Gaussian times the transmission of the rest wavelength at the redshift of the profile, for the
chosen extinction curve, or the fourth one when none is chosen; above Lyman alpha it is the Gaussian. -/
theorem C59_value (p : P) (m : Meiksin.T ℝ) (z : ℝ) (hm : p.igm = some m) (hz : p.z = some z) (hz1 : 0 < 1 + z) (x x0 sigma : ℝ)
    (hs : sigma ≠ 0) :
    (1216 * (1 + z) < x → val p x x0 sigma = Profile.symVal x x0 sigma) ∧
    (∀ c, p.idx ≠ -1 → Meiksin.correction m z p.idx (x / (1 + z)) = .ok c →
      val p x x0 sigma = .ok (exp (-(1 / 2) * ((x - x0) / sigma) * ((x - x0) / sigma)) * c)) ∧
    (∀ c, p.idx = -1 → Meiksin.correction m z 3 (x / (1 + z)) = .ok c →
      val p x x0 sigma = .ok (exp (-(1 / 2) * ((x - x0) / sigma) * ((x - x0) / sigma)) * c)) := by
  have hi := init_eq hm hz
  refine ⟨fun h => ?_, fun c hidx hc => ?_, fun c hidx hc => ?_⟩
  · have h1 : 1216 < x / (1 + z) := by rw [lt_div_iff₀ hz1]; exact h
    unfold val corr
    rw [hi, Res.bind_ok]
    simp only
    rw [if_neg hz1.ne', ((Meiksin.C58_no_absorption m z (igmIdx p) _).1 h1).1, Res.bind_ok, symVal_eq x x0 hs, Res.bind_ok, mul_one]
  · unfold val corr igmIdx
    rw [hi, Res.bind_ok]
    simp only
    rw [if_neg hz1.ne', if_pos hidx, hc, Res.bind_ok, symVal_eq x x0 hs, Res.bind_ok]; rfl
  · unfold val corr igmIdx
    rw [hi, Res.bind_ok]
    simp only
    rw [if_neg hz1.ne', if_neg (by simpa using hidx), hc, Res.bind_ok, symVal_eq x x0 hs, Res.bind_ok]; rfl

/-- **C59.** What is returned as the derivative with respect to the width is the derivative of the value. -/
theorem C59_deriv_sigma (p : P) (m : Meiksin.T ℝ) (z : ℝ) (hm : p.igm = some m) (hz : p.z = some z) (hz1 : 1 + z ≠ 0)
    (x x0 sigma : ℝ) (hs : sigma ≠ 0) (c : ℝ) (hc : Meiksin.correction m z (igmIdx p) (x / (1 + z)) = .ok c) :
    ∃ d, derivSigma p x x0 sigma = .ok d ∧ Profile.IsDeriv (fun s => val p x x0 s) sigma d := by
  obtain ⟨-, d, hd, f, hf, hfd⟩ := Profile.C56_sym_deriv x x0 sigma hs
  refine ⟨d * c, ?_, fun s => f s * c, ?_, hfd.mul_const c⟩
  · unfold derivSigma corr
    rw [init_eq hm hz, Res.bind_ok]
    simp only
    rw [if_neg hz1, hc, Res.bind_ok, hd, Res.bind_ok]
  · filter_upwards [hf] with s h
    unfold val corr
    rw [init_eq hm hz, Res.bind_ok]
    simp only
    rw [if_neg hz1, hc, Res.bind_ok, h, Res.bind_ok]

/-- **C59.** What is returned as the derivative with respect to the position is the derivative of the absorbed Gaussian when
its position and the redshift move together, `1 + z` being proportional to the position, provided the derivative returned
with the transmission is that of a transmission curve `C`. -/
theorem C59_deriv_x0 (p : P) (m : Meiksin.T ℝ) (z : ℝ) (hm : p.igm = some m) (hz : p.z = some z) (hz1 : 1 + z ≠ 0)
    (x x0 sigma : ℝ) (hs : sigma ≠ 0) (hx0 : x0 ≠ 0) (C : ℝ → ℝ) (D : ℝ) (hC : HasDerivAt C D (x / (1 + z)))
    (hc : Meiksin.correctionDeriv m z (igmIdx p) (x / (1 + z)) = .ok (C (x / (1 + z)), D)) :
    ∃ d, derivX0 p x x0 sigma = .ok d ∧
      HasDerivAt (fun t => exp (-(1 / 2) * ((x - t) / sigma) * ((x - t) / sigma)) * C (x / ((1 + z) * (t / x0)))) d x0 := by
  refine ⟨(x - x0) / sigma / sigma * gauss x x0 sigma * C (x / (1 + z)) +
    gauss x x0 sigma * (-(x / (1 + z)) / x0 * D), ?_, ?_⟩
  · unfold derivX0
    rw [init_eq hm hz, Res.bind_ok]
    simp only
    rw [if_neg hz1, if_neg hx0, hc, Res.bind_ok]
    unfold Profile.symDerivX0
    rw [if_neg hs, Res.bind_ok, symVal_eq x x0 hs, Res.bind_ok]
    rfl
  · have h1 : HasDerivAt (fun t : ℝ => (x - t) / sigma) (-1 / sigma) x0 :=
      ((hasDerivAt_id x0).const_sub x).div_const sigma
    have h2 := ((h1.const_mul (-(1 / 2))).fun_mul h1).exp
    have h3 : HasDerivAt (fun t : ℝ => (1 + z) * (t / x0)) ((1 + z) * (1 / x0)) x0 :=
      ((hasDerivAt_id x0).div_const x0).const_mul (1 + z)
    have h4 : HasDerivAt (fun t : ℝ => x / ((1 + z) * (t / x0))) (-x * ((1 + z) * (1 / x0)) / ((1 + z) * (x0 / x0)) ^ 2) x0 := by
      have := (hasDerivAt_const x0 x).fun_div h3 (by rw [div_self hx0]; simpa using hz1)
      refine this.congr_deriv ?_
      ring
    have h5 : HasDerivAt (fun t : ℝ => C (x / ((1 + z) * (t / x0)))) (D * (-x * ((1 + z) * (1 / x0)) / ((1 + z) * (x0 / x0)) ^ 2)) x0 := by
      refine HasDerivAt.comp x0 ?_ h4
      rw [div_self hx0, mul_one]; exact hC
    have h6 := h2.fun_mul h5
    refine h6.congr_deriv ?_
    unfold gauss
    rw [div_self hx0, mul_one]
    generalize exp (-(1 / 2) * ((x - x0) / sigma) * ((x - x0) / sigma)) = E
    generalize C (x / (1 + z)) = V
    field_simp
    ring

/-- **C59.** A line whose support is above Lyman alpha has the flux of the Gaussian, the integral of its value. -/
theorem C59_flux_above_partial (p : P) (m : Meiksin.T ℝ) (z : ℝ) (hm : p.igm = some m) (hz : p.z = some z) (hz1 : 0 < 1 + z)
    (x0 sigma A : ℝ) (h : 1216 * (1 + z) < x0 - 4 * sigma) : flux p x0 sigma A = .ok (A * sigma * √(2 * π)) := by
  unfold flux
  rw [init_eq hm hz, Res.bind_ok]
  simp only
  rw [if_neg hz1.ne', if_pos]
  · rfl
  · unfold Meiksin.lya
    rw [show x0 / (1 + z) - sigma / (1 + z) * 8 / 2 = (x0 - 4 * sigma) / (1 + z) by field_simp; ring, lt_div_iff₀ hz1]
    exact h

/-- What the flux of an absorbed line is: the transmission enters twice, and the integral is over the rest wavelengths. -/
theorem flux_formula (p : P) (m : Meiksin.T ℝ) (z : ℝ) (hm : p.igm = some m) (hz : p.z = some z) (hz1 : 0 < 1 + z)
    (x0 sigma A : ℝ) (hs : sigma ≠ 0) (hidx : igmIdx p ≠ -1) (N : Nat) (hN : 0 < N) (hf : m.fineSize = N)
    (hb1 : (x0 - 4 * sigma) / (1 + z) ≤ Meiksin.lam m.lmin (N - 1)) (hb2 : m.lmin ≤ (x0 + 4 * sigma) / (1 + z)) (w c : List ℝ)
    (hw : Meiksin.waveAndCorrection m ⟨(x0 - 4 * sigma) / (1 + z), (x0 + 4 * sigma) / (1 + z)⟩ z (igmIdx p) = .ok (w, c))
    (hlya : ∀ x ∈ w, x ≤ 1216) (h2 : 2 ≤ w.length) :
    ∃ prof vals : List ℝ, prof.length = w.length ∧ vals.length = w.length ∧
      (∀ (i : Nat) x v, w[i]? = some x → vals[i]? = some v → val p (x * (1 + z)) x0 sigma = .ok v) ∧
      (∀ (i : Nat) x ci v, w[i]? = some x → c[i]? = some ci → vals[i]? = some v →
        v = gauss (x * (1 + z)) x0 sigma * ci ∧ prof[i]? = some (v * ci)) ∧
      flux p x0 sigma A = .ok (A * Flux.trapez w prof 0 (w.length - 1)) := by
  obtain ⟨-, hvec⟩ := Meiksin.C58_vector m N hN hf ⟨(x0 - 4 * sigma) / (1 + z), (x0 + 4 * sigma) / (1 + z)⟩ hb1 hb2 z (igmIdx p) hidx
  obtain ⟨-, -, -, hlen, hcorr⟩ := hvec w c hw
  have hval : ∀ (i : Nat) x ci, w[i]? = some x → c[i]? = some ci →
      val p (x * (1 + z)) x0 sigma = .ok (gauss (x * (1 + z)) x0 sigma * ci) := by
    intro i x ci hx hci
    have h3 := hcorr i x ci hx hci (hlya x (List.mem_of_getElem? hx))
    unfold val corr
    rw [init_eq hm hz, Res.bind_ok]
    simp only
    rw [if_neg hz1.ne', mul_div_cancel_right₀ x hz1.ne', h3, Res.bind_ok, symVal_eq _ _ hs, Res.bind_ok]
  set vals := (List.range w.length).map (fun i => gauss (w[i]?.getD 0 * (1 + z)) x0 sigma * c[i]?.getD 0) with hvals
  have hvl : vals.length = w.length := by simp [hvals]
  have htab1 : Res.tab (fun i => Res.at_ w i >>= fun xr => val p (xr * (1 + z)) x0 sigma) w.length = .ok vals := by
    rw [hvals]
    apply Res.tab_ok
    intro i hi
    have hi' : i < c.length := by omega
    rw [Res.at_of_lt hi, Res.bind_ok, hval i w[i] c[i] (by simp) (by simp)]
    simp [hi, hi']
  set prof := (List.range w.length).map (fun i => vals[i]?.getD 0 * c[i]?.getD 0) with hprof
  have htab2 : Res.tab (fun i => Res.at_ vals i >>= fun g => Res.at_ c i >>= fun ci => .ok (g * ci)) vals.length = .ok prof := by
    rw [hprof, hvl]
    apply Res.tab_ok
    intro i hi
    have hi' : i < c.length := by omega
    rw [Res.at_of_lt (by omega : i < vals.length), Res.bind_ok, Res.at_of_lt hi', Res.bind_ok]
    simp [hi', show i < vals.length by omega]
  have hpl : prof.length = w.length := by simp [hprof]
  refine ⟨prof, vals, hpl, hvl, ?_, ?_, ?_⟩
  · intro i x v hx hv
    have hi := (List.getElem?_eq_some_iff.1 hx).1
    have hi' : i < c.length := by omega
    rw [hval i x c[i] hx (by simp)]
    congr 1
    rw [hvals, List.getElem?_map, List.getElem?_range hi] at hv
    simp only [Option.map_some, Option.some.injEq] at hv
    rw [← hv, hx]; simp [hi']
  · intro i x ci v hx hci hv
    have hi := (List.getElem?_eq_some_iff.1 hx).1
    refine ⟨?_, ?_⟩
    · rw [hvals, List.getElem?_map, List.getElem?_range hi] at hv
      simp only [Option.map_some, Option.some.injEq] at hv
      rw [← hv, hx, hci]; rfl
    · rw [hprof, List.getElem?_map, List.getElem?_range hi]
      simp [hv, hci]
  · unfold flux
    rw [init_eq hm hz, Res.bind_ok]
    simp only
    have e1 : x0 / (1 + z) - sigma / (1 + z) * 8 / 2 = (x0 - 4 * sigma) / (1 + z) := by field_simp; ring
    have e2 : x0 / (1 + z) + sigma / (1 + z) * 8 / 2 = (x0 + 4 * sigma) / (1 + z) := by field_simp; ring
    have hnl : ¬ Meiksin.lya < (x0 - 4 * sigma) / (1 + z) := by
      obtain ⟨hne, -, hmem, -⟩ := hvec w c hw
      obtain ⟨x, hx⟩ := List.exists_mem_of_ne_nil w hne
      obtain ⟨k, hk, hxe, hb, -⟩ := (hmem x).1 hx
      simp only at hb
      have := hlya x hx
      unfold Meiksin.lya; push Not; linarith
    rw [if_neg hz1.ne', e1, e2, if_neg hnl, hw, Res.bind_ok]
    simp only
    rw [htab1, Res.bind_ok, htab2, Res.bind_ok,
      Flux.C52_integrate w prof (List.replicate prof.length 1) [(0, w.length - 1)] h2 hpl (by simp [hpl])
        (by intro r hr; rw [List.mem_singleton] at hr; subst hr; simp only; omega), Res.bind_ok]
    simp

/-- **C59, as far as it goes.** The flux of a line below Lyman alpha is not the integral of its profile. With a uniform
transmission `c` over the line, what is returned times `1 + z` is `c` times the trapezium integral over the observed
wavelengths of the values of the profile times the amplitude: the absorption is counted twice, and `1 + z` is missing. -/
theorem C59_flux_wrong (p : P) (m : Meiksin.T ℝ) (z : ℝ) (hm : p.igm = some m) (hz : p.z = some z) (hz1 : 0 < 1 + z)
    (x0 sigma A : ℝ) (hs : sigma ≠ 0) (hidx : igmIdx p ≠ -1) (N : Nat) (hN : 0 < N) (hf : m.fineSize = N)
    (hb1 : (x0 - 4 * sigma) / (1 + z) ≤ Meiksin.lam m.lmin (N - 1)) (hb2 : m.lmin ≤ (x0 + 4 * sigma) / (1 + z)) (w c : List ℝ)
    (hw : Meiksin.waveAndCorrection m ⟨(x0 - 4 * sigma) / (1 + z), (x0 + 4 * sigma) / (1 + z)⟩ z (igmIdx p) = .ok (w, c))
    (hlya : ∀ x ∈ w, x ≤ 1216) (h2 : 2 ≤ w.length) (tr : ℝ) (htr : ∀ x ∈ c, x = tr) :
    ∃ (vals : List ℝ) (f : ℝ), vals.length = w.length ∧
      (∀ (i : Nat) x v, w[i]? = some x → vals[i]? = some v → val p (x * (1 + z)) x0 sigma = .ok v) ∧
      flux p x0 sigma A = .ok f ∧
      f * (1 + z) = tr * (A * Flux.trapez (w.map (· * (1 + z))) vals 0 (w.length - 1)) := by
  obtain ⟨prof, vals, hpl, hvl, h3, h4, h5⟩ := flux_formula p m z hm hz hz1 x0 sigma A hs hidx N hN hf hb1 hb2 w c hw hlya h2
  refine ⟨vals, _, hvl, h3, h5, ?_⟩
  have hlen : w.length = c.length := by
    obtain ⟨-, hvec⟩ := Meiksin.C58_vector m N hN hf ⟨(x0 - 4 * sigma) / (1 + z), (x0 + 4 * sigma) / (1 + z)⟩ hb1 hb2 z (igmIdx p) hidx
    exact (hvec w c hw).2.2.2.1
  have hprof : ∀ i, i < w.length → prof.getD i 0 = vals.getD i 0 * tr := by
    intro i hi
    have hi1 : i < c.length := by omega
    have hi2 : i < vals.length := by omega
    have := (h4 i w[i] c[i] vals[i] (by simp) (by simp) (by simp)).2
    rw [List.getD_eq_getElem?_getD, this, htr c[i] (List.getElem_mem hi1)]
    simp [hi2]
  have hwm : ∀ i, (w.map (· * (1 + z))).getD i 0 = w.getD i 0 * (1 + z) := by
    intro i
    rw [List.getD_eq_getElem?_getD, List.getD_eq_getElem?_getD, List.getElem?_map]
    cases w[i]? <;> simp
  unfold Flux.trapez
  rw [mul_assoc, mul_left_comm tr A]
  congr 1
  rw [← List.sum_map_mul_right, ← List.sum_map_mul_left]
  congr 1
  apply List.map_congr_left
  intro k hk
  rw [List.mem_range] at hk
  rw [hprof _ (by omega), hprof _ (by omega), hwm, hwm]
  ring

/-! ## A concrete case -/

/-- A table of three samples from 1000 with a transmission of one half at every sample, already convolved. -/
noncomputable def demoIgm : Meiksin.T ℝ :=
  ⟨[2, 3], [], [⟨(List.range 3).map (Meiksin.lam 1000), [[1 / 2, 1 / 2, 1 / 2]]⟩], 1000, 3, 3, true⟩

theorem demo_z : Meiksin.redshiftIndex demoIgm 2 = .ok 0 :=
  (Meiksin.redshiftIndex_spec demoIgm (by simp [demoIgm]; norm_num) (by simp [demoIgm]) 2).2 0 2 3 (by simp [demoIgm]) (by simp [demoIgm])
    le_rfl (Or.inl (by norm_num))

theorem demo_corr (x : ℝ) (hx : x ≤ 1216) : Meiksin.correction demoIgm 2 0 x = .ok (1 / 2) := by
  obtain ⟨k, h1, h2, -⟩ := Meiksin.waveIndex_spec demoIgm 3 (by norm_num) rfl x
  unfold Meiksin.correction Meiksin.lya
  rw [if_neg (not_lt.2 hx), if_neg (by decide), demo_z, Res.bind_ok, if_neg (by decide), h1]
  unfold Meiksin.corrAt demoIgm
  have : k = 0 ∨ k = 1 ∨ k = 2 := by omega
  rcases this with rfl | rfl | rfl <;> rfl

/-- The hypotheses of `C59_value` hold: at redshift 2 a line absorbed by one half. -/
example : val ⟨some demoIgm, some 2, 0, false⟩ 3000 3000 1 = .ok (1 / 2) := by
  have := (C59_value ⟨some demoIgm, some 2, 0, false⟩ demoIgm 2 rfl rfl (by norm_num) 3000 3000 1 one_ne_zero).2.1 (1 / 2)
    (by decide) (demo_corr _ (by norm_num))
  rw [this]; simp

/-- The hypotheses of `C59_flux_wrong` hold. -/
example : ∃ f, flux ⟨some demoIgm, some 2, 0, false⟩ (30003 / 10) 1 1 = .ok f ∧ 0 < f := by
  have hl : ∀ k : Nat, Meiksin.lam (1000 : ℝ) k = 1000 + k / 20 := by intro k; unfold Meiksin.lam Meiksin.step; ring
  have hind : Meiksin.rangeIndices demoIgm ⟨(30003 / 10 - 4 * 1) / (1 + 2), (30003 / 10 + 4 * 1) / (1 + 2)⟩ false = ⟨0, 2⟩ := by
    obtain ⟨i1, i2, i3, i4⟩ := Meiksin.mem_indices demoIgm false 3 (by norm_num) rfl
      ⟨(30003 / 10 - 4 * 1) / (1 + 2), (30003 / 10 + 4 * 1) / (1 + 2)⟩
      (by show _ ≤ Meiksin.lam (1000 : ℝ) _; rw [hl]; norm_num) (by show (1000 : ℝ) ≤ _; norm_num)
    have a0 := (i4 0 (by norm_num)).2 ⟨by show _ ≤ Meiksin.lam (1000 : ℝ) _; rw [hl]; norm_num,
      by show Meiksin.lam (1000 : ℝ) _ ≤ _; rw [hl]; norm_num⟩
    have a2 := (i4 2 (by norm_num)).2 ⟨by show _ ≤ Meiksin.lam (1000 : ℝ) _; rw [hl]; norm_num,
      by show Meiksin.lam (1000 : ℝ) _ ≤ _; rw [hl]; norm_num⟩
    ext <;> simp only <;> omega
  have hwv : Meiksin.waveVector demoIgm ⟨0, 2⟩ = [1000, 20001 / 20, 10001 / 10] := by
    have : Meiksin.waveVector demoIgm ⟨0, 2⟩ = (List.range 3).map (fun i : Nat => demoIgm.lmin + Meiksin.step * ((0 + (i : Int) : Int) : ℝ)) := rfl
    rw [this]
    simp only [demoIgm, Meiksin.step, List.range_succ, List.range_zero, List.nil_append, List.cons_append, List.map_cons, List.map_nil]
    norm_num
  have hw : Meiksin.waveAndCorrection demoIgm ⟨(30003 / 10 - 4 * 1) / (1 + 2), (30003 / 10 + 4 * 1) / (1 + 2)⟩ 2 0 =
      .ok ([1000, 20001 / 20, 10001 / 10], [1 / 2, 1 / 2, 1 / 2]) := by
    unfold Meiksin.waveAndCorrection
    simp only
    rw [hind, hwv, if_neg (by simp), demo_z, Res.bind_ok, if_neg (by decide)]
    rfl
  obtain ⟨prof, vals, hp, hv, h3, h4, h5⟩ := flux_formula ⟨some demoIgm, some 2, 0, false⟩ demoIgm 2 rfl rfl (by norm_num)
    (30003 / 10) 1 1 one_ne_zero (by decide) 3 (by norm_num) rfl
    (by show _ ≤ Meiksin.lam (1000 : ℝ) _; rw [hl]; norm_num) (by show (1000 : ℝ) ≤ _; norm_num) _ _ hw
    (by intro x hx; simp at hx; rcases hx with rfl | rfl | rfl <;> norm_num) (by simp)
  refine ⟨_, h5, ?_⟩
  have hg : ∀ x : ℝ, 0 < gauss x (30003 / 10) 1 := fun x => exp_pos _
  simp only [List.length_cons, List.length_nil] at hp hv
  have hpos : ∀ i, i < 3 → 0 < prof.getD i 0 := by
    intro i hi
    have hiv : i < vals.length := by omega
    have e : vals[i]? = some vals[i] := by simp
    have : i = 0 ∨ i = 1 ∨ i = 2 := by omega
    rcases this with rfl | rfl | rfl
    · obtain ⟨q1, q2⟩ := h4 0 1000 (1 / 2) _ rfl rfl e
      rw [List.getD_eq_getElem?_getD, q2, q1]
      have := hg (1000 * (1 + 2)); simp only [Option.getD_some]; positivity
    · obtain ⟨q1, q2⟩ := h4 1 (20001 / 20) (1 / 2) _ rfl rfl e
      rw [List.getD_eq_getElem?_getD, q2, q1]
      have := hg (20001 / 20 * (1 + 2)); simp only [Option.getD_some]; positivity
    · obtain ⟨q1, q2⟩ := h4 2 (10001 / 10) (1 / 2) _ rfl rfl e
      rw [List.getD_eq_getElem?_getD, q2, q1]
      have := hg (10001 / 10 * (1 + 2)); simp only [Option.getD_some]; positivity
  have p0 := hpos 0 (by norm_num)
  have p1 := hpos 1 (by norm_num)
  have p2 := hpos 2 (by norm_num)
  unfold Flux.trapez
  simp only [List.length_cons, List.length_nil, List.range_succ, List.range_zero, List.nil_append, List.cons_append, List.map_cons,
    List.map_nil, List.sum_cons, List.sum_nil, Nat.reduceAdd, Nat.reduceSub, List.getD_cons_zero, List.getD_cons_succ, Nat.zero_add]
  nlinarith

end SymIgm
end Amazed
