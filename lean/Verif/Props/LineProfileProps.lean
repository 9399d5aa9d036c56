import Mathlib.Analysis.SpecialFunctions.Gaussian.GaussianIntegral
import Mathlib.Analysis.SpecialFunctions.ImproperIntegrals
import Mathlib.MeasureTheory.Integral.IntervalIntegral.FundThmCalculus
import Mathlib.MeasureTheory.Integral.IntegralEqImproper
import Mathlib.Analysis.Calculus.MeanValue
import Mathlib.Tactic.Linarith
import Mathlib.Tactic.FieldSimp
import Mathlib.Tactic.Ring
import Verif.Model.LineProfile

/-! # C56: line profiles, their derivatives and their fluxes -/

namespace Amazed
namespace Profile

open MeasureTheory Filter Topology Real

/-- Specification: the computation `F` succeeds around `t` and `d` is the derivative of its value at `t`. -/
def IsDeriv (F : ℝ → Res ℝ) (t d : ℝ) : Prop :=
  ∃ f : ℝ → ℝ, (∀ᶠ s in 𝓝 t, F s = .ok (f s)) ∧ HasDerivAt f d t

/-- Specification: the computation `F` succeeds everywhere and its value has the integral `v` over the real line. -/
def IsIntegral (F : ℝ → Res ℝ) (v : ℝ) : Prop :=
  ∃ f : ℝ → ℝ, (∀ s, F s = .ok (f s)) ∧ Integrable f ∧ ∫ s, f s = v

/-- A computation has at most one derivative. -/
theorem IsDeriv.unique {F : ℝ → Res ℝ} {t d e : ℝ} (h1 : IsDeriv F t d) (h2 : IsDeriv F t e) : d = e := by
  obtain ⟨f, hf, hd⟩ := h1
  obtain ⟨g, hg, he⟩ := h2
  have : f =ᶠ[𝓝 t] g := by
    filter_upwards [hf, hg] with s h3 h4
    rw [h3] at h4; exact Res.ok.inj h4
  exact (hd.congr_of_eventuallyEq this.symm).unique he

/-! ## The error function -/

theorem erf_hasDerivAt (x : ℝ) : HasDerivAt erf (2 / √π * exp (-x ^ 2)) x := by
  have hc : Continuous fun t : ℝ => exp (-t ^ 2) := by fun_prop
  have := intervalIntegral.integral_hasDerivAt_right (hc.intervalIntegrable 0 x)
    (hc.stronglyMeasurableAtFilter volume (𝓝 x)) hc.continuousAt
  exact this.const_mul _

theorem erf_zero : erf 0 = 0 := by simp [erf]

theorem erf_neg (x : ℝ) : erf (-x) = -erf x := by
  have h : ∫ t in (0 : ℝ)..(-x), exp (-t ^ 2) = -∫ t in (0 : ℝ)..x, exp (-t ^ 2) := by
    have h1 := intervalIntegral.integral_comp_neg (a := 0) (b := x) (fun t : ℝ => exp (-t ^ 2))
    simp only [neg_sq, neg_zero] at h1
    rw [intervalIntegral.integral_symm, ← h1]
  unfold erf
  rw [h]; ring

theorem erf_strictMono : StrictMono erf :=
  strictMono_of_deriv_pos fun x => by
    rw [(erf_hasDerivAt x).deriv]
    have : 0 < √π := sqrt_pos.2 pi_pos
    positivity

theorem erf_le_one (x : ℝ) : erf x ≤ 1 := by
  rcases le_total x 0 with h | h
  · have := erf_strictMono.monotone h
    rw [erf_zero] at this; linarith
  · unfold erf
    have hi : Integrable fun t : ℝ => exp (-t ^ 2) := by
      have := integrable_exp_neg_mul_sq (b := 1) one_pos
      simpa using this
    have h1 : ∫ t in (0 : ℝ)..x, exp (-t ^ 2) ≤ √π / 2 := by
      rw [intervalIntegral.integral_of_le h]
      have h2 : ∫ t in Set.Ioi (0 : ℝ), exp (-t ^ 2) = √π / 2 := by
        have := integral_gaussian_Ioi 1
        simpa using this
      rw [← h2]
      exact setIntegral_mono_set hi.integrableOn (ae_of_all _ fun t => (exp_pos _).le)
        (Set.Ioc_subset_Ioi_self.eventuallyLE)
    have hp : 0 < √π := sqrt_pos.2 pi_pos
    calc 2 / √π * ∫ t in (0 : ℝ)..x, exp (-t ^ 2) ≤ 2 / √π * (√π / 2) := by gcongr
      _ = 1 := by field_simp

theorem erf_lt_one (x : ℝ) : erf x < 1 :=
  lt_of_lt_of_le (erf_strictMono (show x < x + 1 by linarith)) (erf_le_one _)

theorem neg_one_lt_erf (x : ℝ) : -1 < erf x := by
  have := erf_lt_one (-x)
  rw [erf_neg] at this; linarith

theorem erf_continuous : Continuous erf :=
  continuous_iff_continuousAt.2 fun x => (erf_hasDerivAt x).continuousAt

/-! ## The Gaussian profile -/

/-- **C56.** The derivatives of the symmetric profile with respect to its centre and to its width are those of its value. -/
theorem C56_sym_deriv (x x0 sigma : ℝ) (hs : sigma ≠ 0) :
    (∃ d, symDerivX0 x x0 sigma = .ok d ∧ IsDeriv (fun t => symVal x t sigma) x0 d) ∧
    (∃ d, symDerivSigma x x0 sigma = .ok d ∧ IsDeriv (fun t => symVal x x0 t) sigma d) := by
  refine ⟨⟨_, by unfold symDerivX0; rw [if_neg hs], fun t => exp (-(1 / 2) * ((x - t) / sigma) * ((x - t) / sigma)), ?_, ?_⟩,
    ⟨_, by unfold symDerivSigma; rw [if_neg hs], fun t => exp (-(1 / 2) * ((x - x0) / t) * ((x - x0) / t)), ?_, ?_⟩⟩
  · exact Eventually.of_forall fun t => by simp only [symVal]; rw [if_neg hs]
  · have h1 : HasDerivAt (fun t : ℝ => (x - t) / sigma) (-1 / sigma) x0 :=
      ((hasDerivAt_id x0).const_sub x).div_const sigma
    have h2 := ((h1.const_mul (-(1 / 2))).fun_mul h1).exp
    refine h2.congr_deriv ?_
    ring
  · filter_upwards [isOpen_ne.mem_nhds hs] with t ht
    simp only [symVal]; rw [if_neg ht]
  · have h1 : HasDerivAt (fun t : ℝ => (x - x0) / t) (-(x - x0) / sigma ^ 2) sigma := by
      have := (hasDerivAt_inv hs).const_mul (x - x0)
      simp only [← div_eq_mul_inv] at this
      refine this.congr_deriv ?_
      ring
    have h2 := ((h1.const_mul (-(1 / 2))).fun_mul h1).exp
    refine h2.congr_deriv ?_
    rw [show -(1 / 2) * ((x - x0) / sigma * ((x - x0) / sigma)) = -(1 / 2) * ((x - x0) / sigma) * ((x - x0) / sigma) by ring]
    ring

/-- **C56.** The symmetric profile is one at its centre, symmetric, in `(0, 1]` and decreasing away from its centre. -/
theorem C56_sym_shape (x0 sigma : ℝ) (hs : 0 < sigma) :
    symVal x0 x0 sigma = .ok 1 ∧ (∀ d, symVal (x0 + d) x0 sigma = symVal (x0 - d) x0 sigma) ∧
    (∀ x, ∃ v, symVal x x0 sigma = .ok v ∧ 0 < v ∧ v ≤ 1) ∧
    (∀ x y v w, |x - x0| < |y - x0| → symVal x x0 sigma = .ok v → symVal y x0 sigma = .ok w → w < v) := by
  have hne := hs.ne'
  refine ⟨by unfold symVal; simp [hne], fun d => by unfold symVal; rw [if_neg hne, if_neg hne]; congr 2; ring, ?_, ?_⟩
  · intro x
    refine ⟨_, by unfold symVal; rw [if_neg hne], exp_pos _, ?_⟩
    apply exp_le_one_iff.2
    nlinarith [mul_self_nonneg ((x - x0) / sigma)]
  · intro x y v w hxy hv hw
    unfold symVal at hv hw
    rw [if_neg hne] at hv hw
    cases hv; cases hw
    apply exp_lt_exp.2
    have h1 : ((x - x0) / sigma) ^ 2 < ((y - x0) / sigma) ^ 2 := by
      rw [div_pow, div_pow]
      exact div_lt_div_of_pos_right (sq_lt_sq.2 hxy) (by positivity)
    nlinarith

theorem gauss_half_integrable : Integrable fun u : ℝ => exp (-(1 / 2) * u * u) := by
  have := integrable_exp_neg_mul_sq (b := 1 / 2) (by norm_num)
  refine this.congr (ae_of_all _ fun u => ?_)
  simp only; congr 1; ring

theorem gauss_half_integral : ∫ u : ℝ, exp (-(1 / 2) * u * u) = √(2 * π) := by
  have h := integral_gaussian (1 / 2)
  rw [show π / (1 / 2) = 2 * π by ring] at h
  rw [← h]
  refine integral_congr_ae (ae_of_all _ fun u => ?_)
  simp only; congr 1; ring

/-- Change of variable `u = (x - a) / s`. -/
theorem integral_reduce (g : ℝ → ℝ) (a s : ℝ) (hs : 0 < s) : ∫ x, g ((x - a) / s) = s * ∫ u, g u := by
  rw [integral_sub_right_eq_self (fun x => g (x / s)) a, Measure.integral_comp_div]
  rw [abs_of_pos hs]; rfl

theorem integrable_reduce {g : ℝ → ℝ} (hg : Integrable g) (a s : ℝ) (hs : 0 < s) :
    Integrable fun x => g ((x - a) / s) :=
  (hg.comp_div hs.ne').comp_sub_right a

/-- **C56.** The flux of a symmetric line is the integral of its profile times its amplitude. -/
theorem C56_sym_flux (x0 sigma A : ℝ) (hs : 0 < sigma) :
    ∃ v, IsIntegral (fun x => symVal x x0 sigma) v ∧ symFlux sigma A = A * v := by
  refine ⟨sigma * √(2 * π), ⟨fun x => exp (-(1 / 2) * ((x - x0) / sigma) * ((x - x0) / sigma)), ?_, ?_, ?_⟩,
    by unfold symFlux; ring⟩
  · intro x; simp only [symVal]; rw [if_neg hs.ne']
  · exact integrable_reduce gauss_half_integrable x0 sigma hs
  · rw [integral_reduce (fun u => exp (-(1 / 2) * u * u)) x0 sigma hs, gauss_half_integral]

/-! ## The Lorentzian profile -/

/-- **C56.** The flux of a Lorentzian line is the integral of its profile times its amplitude; its derivatives are refused. -/
theorem C56_lor (x0 sigma A : ℝ) (hs : 0 < sigma) :
    (∃ v, IsIntegral (fun x => lorVal x x0 sigma) v ∧ lorFlux sigma A = A * v) ∧
    (∀ x, ∃ v, lorVal x x0 sigma = .ok v ∧ 0 < v ∧ v ≤ 1) ∧
    (∀ x, lorDeriv x x0 sigma = .throw .INTERNAL_ERROR) := by
  have he : (fun u : ℝ => 1 / (1 + u * u)) = fun u : ℝ => (1 + u ^ 2)⁻¹ := by
    funext u; rw [one_div, sq]
  refine ⟨⟨sigma * π, ⟨fun x => 1 / (1 + (x - x0) / sigma * ((x - x0) / sigma)), ?_, ?_, ?_⟩, by unfold lorFlux; ring⟩, ?_,
    fun _ => rfl⟩
  · intro x; simp only [lorVal]; rw [if_neg hs.ne']
  · exact integrable_reduce (g := fun u => 1 / (1 + u * u)) (by rw [he]; exact integrable_inv_one_add_sq) x0 sigma hs
  · rw [integral_reduce (fun u => 1 / (1 + u * u)) x0 sigma hs, he, integral_univ_inv_one_add_sq]
  · intro x
    have hp : 0 ≤ (x - x0) / sigma * ((x - x0) / sigma) := mul_self_nonneg _
    refine ⟨_, by unfold lorVal; rw [if_neg hs.ne'], by positivity, ?_⟩
    rw [div_le_one (by linarith)]; linarith

/-! ## The asymmetric profile -/

/-- Specification: a profile the code can evaluate: parameters that are numbers, no offset without centering. -/
def Usable (p : Asym) (c alpha d : ℝ) : Prop :=
  p.c = some c ∧ p.alpha = some alpha ∧ p.delta = some d ∧ (p.centering = "none" → d = 0)

/-- The reduced abscissa. -/
noncomputable def red (p : Asym) (c alpha d x x0 sigma : ℝ) : ℝ :=
  (x - x0 + sigma * c * m0 p.centering alpha + d) / (sigma * c)

theorem params_ok {p : Asym} {c alpha d : ℝ} (h : Usable p c alpha d) : params p = .ok (c, alpha) := by
  unfold params; rw [h.1, h.2.1]

theorem xsurc_ok {p : Asym} {c alpha d : ℝ} (h : Usable p c alpha d) {sigma : ℝ} (hs : sigma * c ≠ 0) (x x0 : ℝ) :
    xsurc p c alpha (x - x0) sigma = .ok (m0 p.centering alpha, sigma * c, red p c alpha d x x0 sigma) := by
  unfold xsurc red
  have hn : ¬ (p.centering = "none" ∧ p.delta ≠ some 0) := by
    rintro ⟨h1, h2⟩
    rw [h.2.2.1, h.2.2.2 h1] at h2
    exact h2 rfl
  rw [if_neg hn, h.2.2.1]
  simp only
  rw [if_neg hs]

theorem asymVal_ok {p : Asym} {c alpha d : ℝ} (h : Usable p c alpha d) {sigma : ℝ} (hs : sigma * c ≠ 0) (x x0 : ℝ) :
    asymVal p x x0 sigma = .ok (exp (-(1 / 2) * red p c alpha d x x0 sigma * red p c alpha d x x0 sigma) *
      (1 + erf (alpha / √2 * red p c alpha d x x0 sigma))) := by
  unfold asymVal
  rw [params_ok h, Res.bind_ok, xsurc_ok h hs, Res.bind_ok]

/-- The derivative of the skewed bell along a reduced abscissa. -/
theorem bell_hasDerivAt (alpha : ℝ) {r : ℝ → ℝ} {r' t : ℝ} (hr : HasDerivAt r r' t) :
    HasDerivAt (fun s => exp (-(1 / 2) * r s * r s) * (1 + erf (alpha / √2 * r s)))
      (-(r t) * r' * exp (-(1 / 2) * (r t * r t)) * (1 + erf (alpha / √2 * r t)) +
        alpha * √2 / √π * r' * (exp (-(1 / 2) * (r t * r t)) * exp (-(1 / 2) * (r t * r t) * (alpha * alpha)))) t := by
  have h1 := ((hr.const_mul (-(1 / 2))).fun_mul hr).exp
  have h2 := (HasDerivAt.comp t (erf_hasDerivAt (alpha / √2 * r t)) (hr.const_mul (alpha / √2))).const_add 1
  have h3 := h1.fun_mul h2
  refine h3.congr_deriv ?_
  simp only [Function.comp]
  have e1 : -(1 / 2) * r t * r t = -(1 / 2) * (r t * r t) := by ring
  have e2 : -(alpha / √2 * r t) ^ 2 = -(1 / 2) * (r t * r t) * (alpha * alpha) := by
    rw [mul_pow, div_pow, sq_sqrt (by norm_num)]; ring
  have e3 : (2 : ℝ) = √2 * √2 := (mul_self_sqrt (by norm_num)).symm
  have hs2 : √(2 : ℝ) ≠ 0 := (sqrt_pos.2 (by norm_num)).ne'
  have hp : √π ≠ 0 := (sqrt_pos.2 pi_pos).ne'
  rw [e1, e2]
  have e4 : 2 / √π * exp (-(1 / 2) * (r t * r t) * (alpha * alpha)) * (alpha / √2 * r') =
      alpha * √2 / √π * r' * exp (-(1 / 2) * (r t * r t) * (alpha * alpha)) := by
    have : (2 : ℝ) / √π * (alpha / √2) = alpha * √2 / √π := by
      field_simp; rw [sq_sqrt (by norm_num)]; ring
    calc _ = (2 / √π * (alpha / √2)) * r' * exp (-(1 / 2) * (r t * r t) * (alpha * alpha)) := by ring
      _ = _ := by rw [this]
  rw [e4]
  ring

theorem red_deriv_sigma {p : Asym} (c alpha d x x0 : ℝ) {sigma : ℝ} (hs : sigma * c ≠ 0) :
    HasDerivAt (fun t => red p c alpha d x x0 t)
      (c * (m0 p.centering alpha - red p c alpha d x x0 sigma) / (sigma * c)) sigma := by
  have hs1 : sigma ≠ 0 := left_ne_zero_of_mul hs
  have hc : c ≠ 0 := right_ne_zero_of_mul hs
  have h1 : HasDerivAt (fun t : ℝ => (x - x0 + d) / c * t⁻¹ + m0 p.centering alpha)
      ((x - x0 + d) / c * -(sigma ^ 2)⁻¹) sigma := ((hasDerivAt_inv hs1).const_mul _).add_const _
  have heq : (fun t => red p c alpha d x x0 t) =ᶠ[𝓝 sigma] fun t => (x - x0 + d) / c * t⁻¹ + m0 p.centering alpha := by
    filter_upwards [isOpen_ne.mem_nhds hs1] with t ht
    unfold red; field_simp; ring
  have h2 := h1.congr_of_eventuallyEq heq
  refine h2.congr_deriv ?_
  unfold red; field_simp; ring

theorem red_deriv_x0 {p : Asym} (c alpha d x x0 sigma : ℝ) :
    HasDerivAt (fun t => red p c alpha d x t sigma) (-1 / (sigma * c)) x0 := by
  unfold red
  exact ((((hasDerivAt_id x0).const_sub x).add_const _).add_const _).div_const _

/-- **C56.** The derivative of the asymmetric profile with respect to its width is that of its value, for every shape and
every centering. -/
theorem C56_asym_deriv_sigma_partial (p : Asym) (c alpha d : ℝ) (h : Usable p c alpha d) (x x0 sigma : ℝ) (hs : sigma * c ≠ 0) :
    ∃ v, asymDerivSigma p x x0 sigma = .ok v ∧ IsDeriv (fun t => asymVal p x x0 t) sigma v := by
  have hc : c ≠ 0 := right_ne_zero_of_mul hs
  refine ⟨_, by unfold asymDerivSigma; rw [params_ok h, Res.bind_ok, xsurc_ok h hs, Res.bind_ok],
    fun t => exp (-(1 / 2) * red p c alpha d x x0 t * red p c alpha d x x0 t) *
      (1 + erf (alpha / √2 * red p c alpha d x x0 t)), ?_, ?_⟩
  · filter_upwards [isOpen_ne.mem_nhds (left_ne_zero_of_mul hs)] with t ht
    exact asymVal_ok h (mul_ne_zero ht hc) x x0
  · have h1 := bell_hasDerivAt alpha (red_deriv_sigma (p := p) c alpha d x x0 hs)
    refine h1.congr_deriv ?_
    have hp : √π ≠ 0 := (sqrt_pos.2 pi_pos).ne'
    have hs1 : sigma ≠ 0 := left_ne_zero_of_mul hs
    generalize red p c alpha d x x0 sigma = r
    generalize m0 p.centering alpha = m
    field_simp
    ring

/-- **C56, as far as it goes.** What the code returns for the derivative of the asymmetric profile with respect to its centre
differs from the derivative of its value by the term `α/√(2π)/(σc)·exp(-(1+α²)u²/2)`: it is the derivative if and only if the
shape parameter is null. -/
theorem C56_asym_derivX0_wrong (p : Asym) (c alpha d : ℝ) (h : Usable p c alpha d) (x x0 sigma : ℝ) (hs : sigma * c ≠ 0) :
    ∃ v, asymDerivX0 p x x0 sigma = .ok v ∧
      (∃ u, IsDeriv (fun t => asymVal p x t sigma) x0 (v - alpha / √(2 * π) / (sigma * c) * exp (-(1 + alpha * alpha) / 2 * (u * u)))) ∧
      (IsDeriv (fun t => asymVal p x t sigma) x0 v ↔ alpha = 0) := by
  have key : IsDeriv (fun t => asymVal p x t sigma) x0
      ((red p c alpha d x x0 sigma / (sigma * c) * exp (-(1 / 2) * (red p c alpha d x x0 sigma * red p c alpha d x x0 sigma)) *
        (1 + erf (alpha / √2 * red p c alpha d x x0 sigma)) -
        alpha / √(2 * π) / (sigma * c) * exp (-(1 + alpha * alpha) / 2 * (red p c alpha d x x0 sigma * red p c alpha d x x0 sigma))) -
        alpha / √(2 * π) / (sigma * c) *
          exp (-(1 + alpha * alpha) / 2 * (red p c alpha d x x0 sigma * red p c alpha d x x0 sigma))) := by
    refine ⟨fun t => exp (-(1 / 2) * red p c alpha d x t sigma * red p c alpha d x t sigma) *
      (1 + erf (alpha / √2 * red p c alpha d x t sigma)), Eventually.of_forall fun t => asymVal_ok h hs x t, ?_⟩
    have h1 := bell_hasDerivAt alpha (red_deriv_x0 (p := p) c alpha d x x0 sigma)
    refine h1.congr_deriv ?_
    have hp : √π ≠ 0 := (sqrt_pos.2 pi_pos).ne'
    have hs2 : √(2 : ℝ) ≠ 0 := (sqrt_pos.2 (by norm_num)).ne'
    generalize red p c alpha d x x0 sigma = r
    rw [← exp_add, show -(1 / 2) * (r * r) + -(1 / 2) * (r * r) * (alpha * alpha) = -(1 + alpha * alpha) / 2 * (r * r) by ring,
      sqrt_mul (by norm_num)]
    have e3 : (√2 : ℝ) * √2 = 2 := mul_self_sqrt (by norm_num)
    have e5 : alpha / (√2 * √π) / (sigma * c) + alpha / (√2 * √π) / (sigma * c) = alpha * √2 / √π / (sigma * c) := by
      have : alpha * √2 / √π = 2 * (alpha / (√2 * √π)) := by
        field_simp; rw [sq_sqrt (by norm_num)]
      rw [this]; ring
    have : alpha * √2 / √π * (-1 / (sigma * c)) = -(alpha / (√2 * √π) / (sigma * c) + alpha / (√2 * √π) / (sigma * c)) := by
      rw [e5]; ring
    rw [this]; ring
  refine ⟨_, by unfold asymDerivX0; rw [params_ok h, Res.bind_ok, xsurc_ok h hs, Res.bind_ok], ⟨_, key⟩, ?_⟩
  constructor
  · intro hv
    have := hv.unique key
    have hz : alpha / √(2 * π) / (sigma * c) * exp (-(1 + alpha * alpha) / 2 * (red p c alpha d x x0 sigma * red p c alpha d x x0 sigma)) = 0 := by
      linarith
    have hp2 : √(2 * π) ≠ 0 := (sqrt_pos.2 (by positivity)).ne'
    rcases mul_eq_zero.1 hz with h1 | h1
    · rcases div_eq_zero_iff.1 h1 with h2 | h2
      · rcases div_eq_zero_iff.1 h2 with h3 | h3
        · exact h3
        · exact absurd h3 hp2
      · exact absurd h2 hs
    · exact absurd h1 (exp_pos _).ne'
  · intro ha
    subst ha
    simpa using key

/-- A profile with an offset and no centering, or with a width or shape that is not a number, is refused at the first use. -/
theorem C56_asym_refused (p : Asym) (x x0 sigma : ℝ)
    (h : p.c = none ∨ p.alpha = none ∨ (p.centering = "none" ∧ p.delta ≠ some 0)) :
    asymVal p x x0 sigma = .throw .INTERNAL_ERROR ∧ asymDerivX0 p x x0 sigma = .throw .INTERNAL_ERROR ∧
    asymDerivSigma p x x0 sigma = .throw .INTERNAL_ERROR := by
  unfold asymVal asymDerivX0 asymDerivSigma
  by_cases hp : p.c = none ∨ p.alpha = none
  · have : params p = .throw .INTERNAL_ERROR := by
      unfold params
      rcases hp with h1 | h1
      · rw [h1]
      · rw [h1]; cases p.c <;> rfl
    rw [this]; exact ⟨rfl, rfl, rfl⟩
  · push Not at hp
    obtain ⟨c, hc⟩ := Option.ne_none_iff_exists'.1 hp.1
    obtain ⟨a, ha⟩ := Option.ne_none_iff_exists'.1 hp.2
    have h3 : p.centering = "none" ∧ p.delta ≠ some 0 := by
      rcases h with h | h | h
      · exact absurd h hp.1
      · exact absurd h hp.2
      · exact h
    have h4 : params p = .ok (c, a) := by unfold params; rw [hc, ha]
    have h5 : ∀ y, xsurc p c a y sigma = .throw .INTERNAL_ERROR := fun y => by unfold xsurc; rw [if_pos h3]
    rw [h4]
    simp only [Res.bind_ok, h5, Res.bind_throw]
    exact ⟨trivial, trivial, trivial⟩

/-- **C56.** The value of an asymmetric profile is positive and below two; with a null shape parameter and no offset (for any
centering) it is the symmetric profile of the scaled width. -/
theorem C56_asym_shape (p : Asym) (c alpha d : ℝ) (h : Usable p c alpha d) (x x0 sigma : ℝ) (hs : sigma * c ≠ 0) :
    (∃ v, asymVal p x x0 sigma = .ok v ∧ 0 < v ∧ v < 2) ∧
    (alpha = 0 → d = 0 → asymVal p x x0 sigma = symVal x x0 (sigma * c)) := by
  constructor
  · refine ⟨_, asymVal_ok h hs x x0, ?_, ?_⟩
    · exact mul_pos (exp_pos _) (by linarith [neg_one_lt_erf (alpha / √2 * red p c alpha d x x0 sigma)])
    · have h1 : exp (-(1 / 2) * red p c alpha d x x0 sigma * red p c alpha d x x0 sigma) ≤ 1 := by
        apply exp_le_one_iff.2
        nlinarith [mul_self_nonneg (red p c alpha d x x0 sigma)]
      have h2 := erf_lt_one (alpha / √2 * red p c alpha d x x0 sigma)
      have h3 := neg_one_lt_erf (alpha / √2 * red p c alpha d x x0 sigma)
      have h4 := exp_pos (-(1 / 2) * red p c alpha d x x0 sigma * red p c alpha d x x0 sigma)
      nlinarith
  · intro ha hd
    subst ha hd
    rw [asymVal_ok h hs]
    unfold symVal
    rw [if_neg hs]
    have hm : m0 p.centering 0 = 0 := by
      unfold m0 muz; simp
    have hr : red p c 0 0 x x0 sigma = (x - x0) / (sigma * c) := by
      unfold red; rw [hm]; congr 1; ring
    rw [hr]
    simp [erf_zero]

theorem bell_integrable (a : ℝ) : Integrable fun u : ℝ => exp (-(1 / 2) * u * u) * erf (a * u) := by
  refine gauss_half_integrable.mul_bdd (c := 1) ?_ ?_
  · exact (erf_continuous.comp (continuous_const.mul continuous_id)).aestronglyMeasurable
  · exact ae_of_all _ fun u => by
      rw [Real.norm_eq_abs, abs_le]
      exact ⟨(neg_one_lt_erf _).le, erf_le_one _⟩

theorem integral_odd {f : ℝ → ℝ} (hf : ∀ u, f (-u) = -f u) : ∫ u, f u = 0 := by
  have h1 := integral_neg_eq_self f volume
  have h2 : ∫ u, f (-u) = -∫ u, f u := by
    rw [← integral_neg]; exact integral_congr_ae (ae_of_all _ fun u => hf u)
  linarith

theorem bell_integral (a : ℝ) : Integrable (fun u : ℝ => exp (-(1 / 2) * u * u) * (1 + erf (a * u))) ∧
    ∫ u : ℝ, exp (-(1 / 2) * u * u) * (1 + erf (a * u)) = √(2 * π) := by
  have he : (fun u : ℝ => exp (-(1 / 2) * u * u) * (1 + erf (a * u))) =
      fun u => exp (-(1 / 2) * u * u) + exp (-(1 / 2) * u * u) * erf (a * u) := by funext u; ring
  rw [he]
  refine ⟨gauss_half_integrable.add (bell_integrable a), ?_⟩
  rw [integral_add gauss_half_integrable (bell_integrable a), gauss_half_integral, integral_odd, add_zero]
  intro u
  rw [show a * -u = -(a * u) by ring, erf_neg, show -(1 / 2) * -u * -u = -(1 / 2) * u * u by ring]; ring

theorem red_eq {p : Asym} {c alpha d x0 sigma : ℝ} (x : ℝ) :
    red p c alpha d x x0 sigma = (x - (x0 - d - sigma * c * m0 p.centering alpha)) / (sigma * c) := by
  unfold red; congr 1; ring

/-- **C56.** The flux of an asymmetric line is the integral of its profile times its amplitude, for every shape, offset and
centering. -/
theorem C56_asym_flux (p : Asym) (c alpha d : ℝ) (h : Usable p c alpha d) (x0 sigma A : ℝ) (hs : 0 < sigma * c) :
    ∃ v, IsIntegral (fun x => asymVal p x x0 sigma) v ∧ asymFlux p sigma A = some (A * v) := by
  refine ⟨sigma * c * √(2 * π), ⟨fun x => exp (-(1 / 2) * red p c alpha d x x0 sigma * red p c alpha d x x0 sigma) *
      (1 + erf (alpha / √2 * red p c alpha d x x0 sigma)), fun x => asymVal_ok h hs.ne' x x0, ?_, ?_⟩, ?_⟩
  · simp only [red_eq]
    exact integrable_reduce (g := fun u => exp (-(1 / 2) * u * u) * (1 + erf (alpha / √2 * u))) (bell_integral _).1 _ _ hs
  · simp only [red_eq]
    rw [integral_reduce (fun u => exp (-(1 / 2) * u * u) * (1 + erf (alpha / √2 * u))) _ _ hs, (bell_integral _).2]
  · unfold asymFlux; rw [h.1]; simp only [Option.map_some]; congr 1; ring

theorem bell_moment (alpha : ℝ) :
    Integrable (fun u : ℝ => u * (exp (-(1 / 2) * u * u) * (1 + erf (alpha / √2 * u)))) ∧
    ∫ u : ℝ, u * (exp (-(1 / 2) * u * u) * (1 + erf (alpha / √2 * u))) = √(2 * π) * muz alpha := by
  set a := alpha / √2 with ha
  have hgi : Integrable fun u : ℝ => u * exp (-(1 / 2) * u * u) := by
    have := integrable_mul_exp_neg_mul_sq (b := 1 / 2) (by norm_num)
    refine this.congr (ae_of_all _ fun u => ?_)
    simp only; congr 2; ring
  have hge : Integrable fun u : ℝ => erf (a * u) * (u * exp (-(1 / 2) * u * u)) := by
    refine hgi.bdd_mul (c := 1) ?_ ?_
    · exact (erf_continuous.comp (continuous_const.mul continuous_id)).aestronglyMeasurable
    · exact ae_of_all _ fun u => by
        rw [Real.norm_eq_abs, abs_le]
        exact ⟨(neg_one_lt_erf _).le, erf_le_one _⟩
  have he : (fun u : ℝ => u * (exp (-(1 / 2) * u * u) * (1 + erf (a * u)))) =
      fun u => u * exp (-(1 / 2) * u * u) + erf (a * u) * (u * exp (-(1 / 2) * u * u)) := by funext u; ring
  rw [he]
  refine ⟨hgi.add hge, ?_⟩
  rw [integral_add hgi hge, integral_odd (f := fun u => u * exp (-(1 / 2) * u * u))
    (fun u => by rw [show -(1 / 2) * -u * -u = -(1 / 2) * u * u by ring]; ring), zero_add]
  have hu : ∀ u : ℝ, HasDerivAt (fun u => erf (a * u)) (2 / √π * exp (-(a * u) ^ 2) * a) u := by
    intro u
    have := HasDerivAt.comp u (erf_hasDerivAt (a * u)) ((hasDerivAt_id u).const_mul a)
    exact this.congr_deriv (by simp)
  have hv : ∀ u : ℝ, HasDerivAt (fun u => -exp (-(1 / 2) * u * u)) (u * exp (-(1 / 2) * u * u)) u := by
    intro u
    have h1 := (((hasDerivAt_id u).const_mul (-(1 / 2) : ℝ)).fun_mul (hasDerivAt_id u)).exp.fun_neg
    refine h1.congr_deriv ?_
    simp only [id]; ring
  have hgauss : ∀ u : ℝ, 2 / √π * exp (-(a * u) ^ 2) * a * -exp (-(1 / 2) * u * u) =
      -(2 / √π * a) * exp (-(a ^ 2 + 1 / 2) * u ^ 2) := by
    intro u
    have : exp (-(a ^ 2 + 1 / 2) * u ^ 2) = exp (-(a * u) ^ 2) * exp (-(1 / 2) * u * u) := by
      rw [← exp_add]; congr 1; ring
    rw [this]; ring
  have hb : 0 < a ^ 2 + 1 / 2 := by positivity
  have hparts := integral_mul_deriv_eq_deriv_mul_of_integrable (u := fun u : ℝ => erf (a * u))
    (v := fun u : ℝ => -exp (-(1 / 2) * u * u)) (u' := fun u => 2 / √π * exp (-(a * u) ^ 2) * a)
    (v' := fun u => u * exp (-(1 / 2) * u * u)) (fun u _ => hu u) (fun u _ => hv u) hge
    (by
      refine Integrable.congr ((integrable_exp_neg_mul_sq hb).const_mul (-(2 / √π * a))) (ae_of_all _ fun u => ?_)
      exact (hgauss u).symm)
    (by
      refine (bell_integrable a).neg.congr (ae_of_all _ fun u => ?_)
      simp only [Pi.neg_apply, Pi.mul_apply]; ring)
  rw [hparts]
  have h5 : ∫ u : ℝ, 2 / √π * exp (-(a * u) ^ 2) * a * -exp (-(1 / 2) * u * u) =
      -(2 / √π * a) * √(π / (a ^ 2 + 1 / 2)) := by
    rw [← integral_gaussian, ← integral_const_mul]
    exact integral_congr_ae (ae_of_all _ fun u => hgauss u)
  rw [h5, neg_mul, neg_neg]
  unfold muz
  have hs2 : √(2 : ℝ) ≠ 0 := (sqrt_pos.2 (by norm_num)).ne'
  have hp : √π ≠ 0 := (sqrt_pos.2 pi_pos).ne'
  have ha2 : a ^ 2 = alpha ^ 2 / 2 := by rw [ha, div_pow, sq_sqrt (by norm_num)]
  have hq : 0 < 1 + alpha * alpha := by nlinarith [mul_self_nonneg alpha]
  have hsq : √(1 + alpha * alpha) ≠ 0 := (sqrt_pos.2 hq).ne'
  have e1 : π / (a ^ 2 + 1 / 2) = 2 * π / (1 + alpha * alpha) := by
    rw [ha2]; field_simp; ring
  rw [e1, sqrt_div (by positivity), sqrt_mul (by norm_num), sqrt_div (by norm_num), ha]
  have e3 : (√2 : ℝ) ^ 2 = 2 := sq_sqrt (by norm_num)
  field_simp
  rw [e3]; ring

/-- **C56.** An asymmetric line centred on its mean has its mean at the given position minus the offset: the first moment of
its profile about that point is null. -/
theorem C56_asym_mean (p : Asym) (c alpha d : ℝ) (h : Usable p c alpha d) (hm : p.centering = "mean") (x0 sigma : ℝ)
    (hs : 0 < sigma * c) :
    IsIntegral (fun x => asymVal p x x0 sigma >>= fun v => .ok ((x - (x0 - d)) * v)) 0 := by
  have hmu : m0 p.centering alpha = muz alpha := by unfold m0; rw [hm]; simp
  set s := sigma * c with hsdef
  set b := x0 - d - s * muz alpha with hb
  set g : ℝ → ℝ := fun u => exp (-(1 / 2) * u * u) * (1 + erf (alpha / √2 * u)) with hg
  have hval : ∀ x, asymVal p x x0 sigma = .ok (g ((x - b) / s)) := by
    intro x
    rw [asymVal_ok h hs.ne', red_eq, hmu]
  obtain ⟨hi1, hv1⟩ := bell_integral (alpha / √2)
  obtain ⟨hi2, hv2⟩ := bell_moment alpha
  have hk : Integrable fun u : ℝ => s * (u * g u) - s * muz alpha * g u :=
    (hi2.const_mul s).sub (hi1.const_mul (s * muz alpha))
  have hx : ∀ x : ℝ, (x - (x0 - d)) * g ((x - b) / s) =
      (fun u => s * (u * g u) - s * muz alpha * g u) ((x - b) / s) := by
    intro x
    have : x - (x0 - d) = s * ((x - b) / s) - s * muz alpha := by
      rw [mul_div_cancel₀ _ hs.ne']; rw [hb]; ring
    simp only
    rw [this]; ring
  refine ⟨fun x => (x - (x0 - d)) * g ((x - b) / s), fun x => by simp only [hval, Res.bind_ok], ?_, ?_⟩
  · simp only [hx]
    exact integrable_reduce hk b s hs
  · simp only [hx]
    rw [integral_reduce (fun u => s * (u * g u) - s * muz alpha * g u) b s hs,
      integral_sub (hi2.const_mul s) (hi1.const_mul (s * muz alpha)), integral_const_mul, integral_const_mul]
    have e1 : ∫ u : ℝ, u * g u = √(2 * π) * muz alpha := hv2
    have e2 : ∫ u : ℝ, g u = √(2 * π) := hv1
    rw [e1, e2]; ring

/-! ## Conversions -/

/-- **C56.** Converting between the fixed and the fitted asymmetric profile, and back, changes no value, derivative, support
or flux; only the fitted profile accepts new parameters, and its reset makes it the symmetric profile of twice the width. -/
theorem C56_convert (p : Asym) :
    (∀ q, q = toFit p ∨ q = toFixed p ∨ q = toFixed (toFit p) ∨ q = toFit (toFixed p) →
      asymVal q = asymVal p ∧ asymDerivX0 q = asymDerivX0 p ∧ asymDerivSigma q = asymDerivSigma p ∧
      asymSupport q = asymSupport p ∧ asymFlux q = asymFlux p) ∧
    (∀ c a d, setParams (toFixed p) c a d = toFixed p) ∧
    (∀ c a d, (setParams (toFit p) c a d).c = c ∧ (setParams (toFit p) c a d).alpha = a ∧
      (setParams (toFit p) c a d).delta = d ∧ (setParams (toFit p) c a d).centering = p.centering) ∧
    (∀ x x0 sigma, sigma ≠ 0 → asymVal (resetParams (toFit p)) x x0 sigma = symVal x x0 (sigma * 2)) := by
  refine ⟨?_, fun _ _ _ => rfl, fun _ _ _ => ⟨rfl, rfl, rfl, rfl⟩, ?_⟩
  · rintro q (rfl | rfl | rfl | rfl) <;> exact ⟨rfl, rfl, rfl, rfl, rfl⟩
  · intro x x0 sigma hs
    have hu : Usable (resetParams (toFit p)) 2 0 0 := ⟨rfl, rfl, rfl, fun _ => rfl⟩
    exact (C56_asym_shape _ 2 0 0 hu x x0 sigma (mul_ne_zero hs (by norm_num))).2 rfl rfl

/-- The default fitted profile (lineprofileASYMFIT.h:55-57, lineprofile.h:73). -/
def defaultFit : Asym := ⟨8, some 2, some 2, some 0, "mean", true⟩

/-- The hypotheses of the theorems on the asymmetric profile are met by the default profile, whose shape is not null. -/
example : Usable defaultFit 2 2 0 ∧ (3 : ℝ) * 2 ≠ 0 ∧ defaultFit.centering = "mean" :=
  ⟨⟨rfl, rfl, rfl, fun _ => rfl⟩, by norm_num, rfl⟩

/-- The derivative with respect to the centre is wrong for the default fitted profile at every point. -/
theorem C56_default_derivX0_wrong (x x0 : ℝ) :
    ∃ v, asymDerivX0 defaultFit x x0 3 = .ok v ∧ ¬ IsDeriv (fun t => asymVal defaultFit x t 3) x0 v := by
  obtain ⟨v, hv, -, hiff⟩ := C56_asym_derivX0_wrong defaultFit 2 2 0 ⟨rfl, rfl, rfl, fun _ => rfl⟩ x x0 3 (by norm_num)
  exact ⟨v, hv, fun hc => absurd (hiff.1 hc) (by norm_num)⟩

end Profile
end Amazed
