import Verif.Model.EltDeriv
import Verif.Props.LineProfileProps
import Verif.Props.SymIgmProps
import Mathlib.Analysis.SpecialFunctions.Sqrt

/-! # C157, C158: the model of an element and its derivatives -/

namespace Amazed
namespace EltDeriv

open Filter Topology Real
open Profile (IsDeriv)

/-- The element with another velocity. -/
noncomputable def Elt.withVel (e : Elt) (v : ℝ) : Elt := if e.emission then { e with velE := v } else { e with velA := v }

/-- The element whose lines have the amplitude `A` times their nominal amplitudes. -/
noncomputable def Elt.withAmp (e : Elt) (A : ℝ) : Elt := { e with lines := e.lines.map fun l => { l with amp := some (l.nominal * A) } }

/-- The profile gives the derivative of its value with respect to its width, when it gives something. -/
def SigOk (p : Prof) : Prop := ∀ x x0 s d, 0 < s → p.dSig x x0 s = .ok d → IsDeriv (fun t => p.val x x0 t) s d

/-- The profile gives the derivative of its value with respect to its centre, when it gives something. -/
def X0Ok (p : Prof) : Prop := ∀ x x0 s d, 0 < s → p.dX0 x x0 s = .ok d → IsDeriv (fun t => p.val x t s) x0 d

/-! ## Derivatives of computations -/

theorem IsDeriv.comp {F : ℝ → Res ℝ} {g : ℝ → ℝ} {t d g' : ℝ} (h : IsDeriv F (g t) d) (hg : HasDerivAt g g' t) : IsDeriv (fun s => F (g s)) t (d * g') := by
  obtain ⟨f, hf, hd⟩ := h
  exact ⟨fun s => f (g s), hg.continuousAt.eventually hf, HasDerivAt.comp t hd hg⟩

theorem IsDeriv.congr {F G : ℝ → Res ℝ} {t d e : ℝ} (h : IsDeriv F t d) (hFG : ∀ᶠ s in 𝓝 t, F s = G s) (he : d = e) : IsDeriv G t e := by
  obtain ⟨f, hf, hd⟩ := h
  refine ⟨f, ?_, he ▸ hd⟩
  filter_upwards [hf, hFG] with s h1 h2
  rw [← h2, h1]

theorem IsDeriv.const (c t : ℝ) : IsDeriv (fun _ => .ok c) t 0 := ⟨fun _ => c, Eventually.of_forall fun _ => rfl, hasDerivAt_const t c⟩

/-- The sum over the lines has the sum of the derivatives for derivative. -/
theorem IsDeriv.sumLines {F : ℝ → Line → Res ℝ} {G : Line → Res ℝ} {t : ℝ} : ∀ (ls : List Line), (∀ l ∈ ls, l.out = false → ∀ d, G l = .ok d → IsDeriv (fun s => F s l) t d) →
    ∀ (y : ℝ → ℝ) (y' a d : ℝ), HasDerivAt y y' t → sumLines G ls a = .ok d → IsDeriv (fun s => EltDeriv.sumLines (F s) ls (y s)) t (y' + (d - a)) := by
  intro ls
  induction ls with
  | nil =>
    intro _ y y' a d hy h
    simp only [EltDeriv.sumLines, Res.ok.injEq] at h
    exact ⟨y, Eventually.of_forall fun _ => rfl, by rw [h]; simpa using hy⟩
  | cons l ls ih =>
    intro H y y' a d hy h
    simp only [EltDeriv.sumLines] at h ⊢
    have H' : ∀ l ∈ ls, l.out = false → ∀ d, G l = .ok d → IsDeriv (fun s => F s l) t d := fun m hm => H m (List.mem_cons_of_mem _ hm)
    by_cases ho : l.out = true
    · rw [if_pos ho] at h
      simp only [ho, if_true]
      exact ih H' y y' a d hy h
    · have ho' : l.out = false := by simpa using ho
      rw [if_neg ho, Res.bind_eq_ok] at h
      obtain ⟨v, hv, h⟩ := h
      simp only [ho', Bool.false_eq_true, if_false]
      obtain ⟨f, hf, hd⟩ := H l (List.mem_cons_self ..) ho' v hv
      have := ih H' (fun s => y s + f s) (y' + v) (a + v) d (hy.add hd) h
      refine IsDeriv.congr this ?_ (by ring)
      filter_upwards [hf] with s hs
      rw [hs, Res.bind_ok]

/-! ## The profiles -/

theorem sym_sigOk : SigOk symProf := by
  intro x x0 s d hs h
  obtain ⟨-, d', h1, h2⟩ := Profile.C56_sym_deriv x x0 s hs.ne'
  rw [show symProf.dSig x x0 s = Profile.symDerivSigma x x0 s from rfl, h1] at h
  exact Res.ok.inj h ▸ h2

theorem sym_x0Ok : X0Ok symProf := by
  intro x x0 s d hs h
  obtain ⟨⟨d', h1, h2⟩, -⟩ := Profile.C56_sym_deriv x x0 s hs.ne'
  rw [show symProf.dX0 x x0 s = Profile.symDerivX0 x x0 s from rfl, h1] at h
  exact Res.ok.inj h ▸ h2

theorem asym_usable {p : Profile.Asym} {x x0 s d : ℝ} (h : Profile.asymDerivSigma p x x0 s = .ok d) : ∃ c a dl, Profile.Usable p c a dl ∧ s * c ≠ 0 := by
  unfold Profile.asymDerivSigma at h
  rw [Res.bind_eq_ok] at h
  obtain ⟨q, hq, h⟩ := h
  rw [Res.bind_eq_ok] at h
  obtain ⟨r, hr, -⟩ := h
  unfold Profile.params at hq
  split at hq
  · next c a hc ha =>
    injection hq with hq
    subst hq
    unfold Profile.xsurc at hr
    split at hr
    · exact absurd hr (by simp)
    · next hn =>
      split at hr
      · exact absurd hr (by simp)
      · next dl hdl =>
        split at hr
        · exact absurd hr (by simp)
        · next hs =>
          refine ⟨c, a, dl, ⟨hc, ha, hdl, fun hcent => ?_⟩, hs⟩
          by_contra hne
          exact hn ⟨hcent, by rw [hdl]; simpa using hne⟩
  · exact absurd hq (by simp)

theorem asym_sigOk (p : Profile.Asym) : SigOk (asymProf p) := by
  intro x x0 s d hs h
  change Profile.asymDerivSigma p x x0 s = .ok d at h
  obtain ⟨c, a, dl, hu, hsc⟩ := asym_usable h
  obtain ⟨v, h1, h2⟩ := Profile.C56_asym_deriv_sigma_partial p c a dl hu x x0 s hsc
  rw [h1] at h
  exact Res.ok.inj h ▸ h2

theorem igm_sigOk (p : SymIgm.P) : SigOk (igmProf p) := by
  intro x x0 s d hs h
  change SymIgm.derivSigma p x x0 s = .ok d at h
  have h0 := h
  unfold SymIgm.derivSigma at h
  rw [Res.bind_eq_ok] at h
  obtain ⟨mz, hi, h⟩ := h
  rw [Res.bind_eq_ok] at h
  obtain ⟨c, hc, -⟩ := h
  unfold SymIgm.init at hi
  split at hi
  · exact absurd hi (by simp)
  · next m hm =>
    split at hi
    · exact absurd hi (by simp)
    · next z hz =>
      injection hi with hi
      subst hi
      unfold SymIgm.corr at hc
      split at hc
      · exact absurd hc (by simp)
      · next hz1 =>
        obtain ⟨d', h1, h2⟩ := SymIgm.C59_deriv_sigma p m z hm hz hz1 x x0 s hs.ne' c hc
        rw [h1] at h0
        exact Res.ok.inj h0 ▸ h2

/-- **C157.** For the four profiles of the library, what is given for the derivative with respect to the width is the derivative of the value. -/
theorem C157_profiles (p : Profile.Asym) (q : SymIgm.P) : SigOk symProf ∧ SigOk lorProf ∧ SigOk (asymProf p) ∧ SigOk (igmProf q) :=
  ⟨sym_sigOk, fun x x0 s d _ h => by simp [lorProf, Profile.lorDeriv] at h, asym_sigOk p, igm_sigOk q⟩

/-! ## The amplitude -/

theorem withAmp_profAt (e : Elt) (A : ℝ) (l : Line) (b : Option ℝ) (z x : ℝ) : profAt (e.withAmp A) { l with amp := b } z x = profAt e l z x := rfl

theorem sumLines_scale {F G : Line → Res ℝ} {k : ℝ} {g : Line → Line} (hout : ∀ l, (g l).out = l.out) : ∀ (ls : List Line) (a b d : ℝ),
    (∀ l ∈ ls, ∀ v, F l = .ok v → G (g l) = .ok (k * v)) → sumLines F ls a = .ok d → sumLines G (ls.map g) b = .ok (b + k * (d - a)) := by
  intro ls
  induction ls with
  | nil => intro a b d _ h; simp only [sumLines, Res.ok.injEq] at h; simp [sumLines, h]
  | cons l ls ih =>
    intro a b d H h
    simp only [sumLines, List.map_cons, hout] at h ⊢
    have H' : ∀ l ∈ ls, ∀ v, F l = .ok v → G (g l) = .ok (k * v) := fun m hm => H m (List.mem_cons_of_mem _ hm)
    by_cases ho : l.out = true
    · rw [if_pos ho] at h ⊢
      exact ih a b d H' h
    · rw [if_neg ho, Res.bind_eq_ok] at h
      obtain ⟨v, hv, h⟩ := h
      rw [if_neg ho, H l (List.mem_cons_self ..) v hv, Res.bind_ok, ih (a + v) (b + k * v) d H' h]
      congr 1
      ring

/-- **C157.** What the element gives for the derivative with respect to its amplitude is, exactly, the model of the element of amplitude 1; the model of the element of any amplitude is that times the amplitude. -/
theorem C157_amplitude {e : Elt} {x z c d : ℝ} (h : derivAmp e x z c = .ok d) (hn : ∀ l ∈ e.lines, 0 ≤ l.nominal) {A : ℝ} (hA : 0 ≤ A) : modelAt (e.withAmp A) x z c = .ok (A * d) := by
  unfold derivAmp at h
  unfold modelAt
  change (if e.outside then _ else sumLines (lineModel (e.withAmp A) x z c) (e.lines.map fun l => { l with amp := some (l.nominal * A) }) 0) = _
  by_cases ho : e.outside = true
  · rw [if_pos ho] at h ⊢
    rw [← Res.ok.inj h, mul_zero]
  · rw [if_neg ho] at h ⊢
    rw [sumLines_scale (k := A) (g := fun l : Line => { l with amp := some (l.nominal * A) }) (fun _ => rfl) e.lines 0 0 d ?_ h]
    · simp
    · intro l hl v hv
      rw [Res.bind_eq_ok] at hv
      obtain ⟨p, hp, hv⟩ := hv
      unfold lineModel
      have : ¬ l.nominal * A < 0 := not_lt.2 (mul_nonneg (hn l hl) hA)
      simp only
      rw [if_neg this, withAmp_profAt, hp, Res.bind_ok]
      simp only [Res.ok.injEq] at hv ⊢
      change (if e.emission then e.sign * (l.nominal * A) * p else c * (e.sign * (l.nominal * A) * p)) = _
      rw [← hv]
      split <;> ring

/-- **C157.** Hence it is the derivative of the model with respect to the amplitude, at any positive amplitude. -/
theorem C157_amplitude_deriv {e : Elt} {x z c d : ℝ} (h : derivAmp e x z c = .ok d) (hn : ∀ l ∈ e.lines, 0 ≤ l.nominal) {A : ℝ} (hA : 0 < A) :
    IsDeriv (fun t => modelAt (e.withAmp t) x z c) A d := by
  refine ⟨fun t => t * d, ?_, by simpa using (hasDerivAt_id A).mul_const d⟩
  filter_upwards [eventually_gt_nhds hA] with t ht
  exact C157_amplitude h hn ht.le

/-! ## The velocity -/

theorem withVel_vel (e : Elt) (v : ℝ) : (e.withVel v).vel = v := by
  unfold Elt.withVel Elt.vel
  by_cases h : e.emission = true <;> simp [h]

theorem withVel_same (e : Elt) (v : ℝ) : (e.withVel v).lines = e.lines ∧ (e.withVel v).outside = e.outside ∧ (e.withVel v).emission = e.emission ∧ (e.withVel v).wtype = e.wtype ∧ (e.withVel v).light = e.light ∧ (e.withVel v).lsf = e.lsf := by
  unfold Elt.withVel
  split <;> simp

/-- The width of a line as a function of the velocity. -/
noncomputable def widthOf (w : WType) (s light mu v : ℝ) : ℝ :=
  match w with
  | .instrument => √(s * s + 0 * 0)
  | .velocity => √(0 * 0 + 1 * v / light * mu * (1 * v / light * mu))
  | .combined => √(s * s + 1 * v / light * mu * (1 * v / light * mu))

theorem posWidth_withVel {e : Elt} {l : Line} {z mu s : ℝ} (h : posWidth e l z false = .ok (mu, s)) :
    e.light ≠ 0 ∧ ∃ i, s = widthOf e.wtype i e.light mu e.vel ∧ ∀ v, posWidth (e.withVel v) l z false = .ok (mu, widthOf e.wtype i e.light mu v) := by
  unfold posWidth at h ⊢
  rw [Res.bind_eq_ok] at h
  obtain ⟨mu', hmu, h⟩ := h
  have hlight : e.light ≠ 0 := by
    intro h0
    unfold obsPos at hmu
    rw [if_pos h0] at hmu
    exact absurd hmu (by simp)
  unfold withWidth at h
  split at h
  · exact absurd h (by simp)
  · next L hL =>
    split at h
    · exact absurd h (by simp)
    · next hav =>
      rw [Res.bind_eq_ok] at h
      obtain ⟨s', hs', h⟩ := h
      simp only [Res.ok.injEq, Prod.mk.injEq] at h
      obtain ⟨rfl, rfl⟩ := h
      unfold lineWidth at hs'
      rw [hL] at hs'
      simp only at hs'
      rw [Res.bind_eq_ok] at hs'
      obtain ⟨i, hi, hs'⟩ := hs'
      rw [if_neg hlight] at hs'
      refine ⟨hlight, i, ?_, fun v => ?_⟩
      · have := Res.ok.inj hs'
        rw [← this]
        unfold widthOf
        cases e.wtype <;> rfl
      · obtain ⟨-, -, -, h4, h5, h6⟩ := withVel_same e v
        have h7 : obsPos (e.withVel v) l z false = .ok mu' := by
          unfold obsPos at hmu ⊢
          rw [h5]; exact hmu
        rw [h7, Res.bind_ok]
        unfold withWidth lineWidth
        rw [h6, hL]
        simp only
        rw [if_neg hav, hi, Res.bind_ok, h5, if_neg hlight, Res.bind_ok, withVel_vel, h4]
        unfold widthOf
        cases e.wtype <;> rfl

/-- Derivative of the width with respect to the velocity. -/
theorem widthOf_deriv (w : WType) (i light mu v : ℝ) (hw : w = .combined ∨ w = .velocity) (hs : 0 < widthOf w i light mu v) :
    HasDerivAt (widthOf w i light mu) (1 / light * mu * (1 / light * mu) * v / widthOf w i light mu v) v := by
  have h1 : HasDerivAt (fun v : ℝ => 1 * v / light * mu) (1 / light * mu) v := by
    refine ((((hasDerivAt_id v).const_mul 1).div_const light).mul_const mu).congr_deriv ?_
    ring
  have h2 := h1.fun_mul h1
  rcases hw with rfl | rfl
  · change 0 < √(i * i + 1 * v / light * mu * (1 * v / light * mu)) at hs
    have h3 := (h2.const_add (i * i)).sqrt (Real.sqrt_pos.1 hs).ne'
    refine h3.congr_deriv ?_
    change _ = 1 / light * mu * (1 / light * mu) * v / √(i * i + 1 * v / light * mu * (1 * v / light * mu))
    have := hs.ne'
    rw [div_eq_div_iff (mul_ne_zero two_ne_zero this) this]
    ring
  · change 0 < √(0 * 0 + 1 * v / light * mu * (1 * v / light * mu)) at hs
    have h3 := (h2.const_add (0 * 0)).sqrt (Real.sqrt_pos.1 hs).ne'
    refine h3.congr_deriv ?_
    change _ = 1 / light * mu * (1 / light * mu) * v / √(0 * 0 + 1 * v / light * mu * (1 * v / light * mu))
    have := hs.ne'
    rw [div_eq_div_iff (mul_ne_zero two_ne_zero this) this]
    ring

/-- In the case of the velocity alone, the width is the product of the velocity by the position. -/
theorem widthOf_velocity {i light mu v : ℝ} (h : 0 ≤ v * mu / light) : widthOf .velocity i light mu v = v * mu / light := by
  change √(0 * 0 + 1 * v / light * mu * (1 * v / light * mu)) = _
  rw [show (0 : ℝ) * 0 + 1 * v / light * mu * (1 * v / light * mu) = (v * mu / light) ^ 2 by ring, Real.sqrt_sq h]

/-- **C157.** What the element gives for the derivative with respect to the velocity is the derivative of its model, whatever the widths are made of: for lines of a positive width, whose profile gives its derivative with respect to the width. For
a width made of the velocity alone, the velocity and the positions of the lines are not negative. -/
theorem C157_velocity {e : Elt} {x z c d : ℝ} (h : derivVel e x z c = .ok d) (hp : ∀ l ∈ e.lines, SigOk l.prof)
    (hw : ∀ l ∈ e.lines, ∀ mu s, posWidth e l z false = .ok (mu, s) → 0 < s ∧ (e.wtype = .velocity → 0 ≤ e.vel * mu / e.light)) :
    IsDeriv (fun v => modelAt (e.withVel v) x z c) e.vel d := by
  unfold derivVel at h
  by_cases ho : e.outside = true
  · rw [if_pos ho] at h
    refine IsDeriv.congr (IsDeriv.const 0 e.vel) (Eventually.of_forall fun v => ?_) (Res.ok.inj h)
    unfold modelAt
    rw [if_pos ((withVel_same e v).2.1.trans ho)]
  · rw [if_neg ho] at h
    have key := IsDeriv.sumLines (F := fun v l => lineModel (e.withVel v) x z c l) (t := e.vel) e.lines (G := fun l =>
      match l.amp with
      | none => .ok 0
      | some a => if a < 0 then .ok 0 else posWidth e l z false >>= fun q => profDerivVel e l.prof x q.1 q.2 >>= fun d =>
        let f := e.sign * a * d
        .ok (if e.emission then f else c * f)) ?_ (fun _ => 0) 0 0 d (hasDerivAt_const _ _) h
    · refine IsDeriv.congr key (Eventually.of_forall fun v => ?_) (by ring)
      unfold modelAt
      rw [if_neg (by rw [(withVel_same e v).2.1]; exact ho), (withVel_same e v).1]
    · intro l hl _ d hd
      unfold lineModel
      cases hamp : l.amp with
      | none =>
        simp only [hamp, Res.ok.injEq] at hd ⊢
        exact hd ▸ IsDeriv.const 0 _
      | some a =>
        simp only [hamp] at hd ⊢
        by_cases ha : a < 0
        · simp only [if_pos ha, Res.ok.injEq] at hd ⊢
          exact hd ▸ IsDeriv.const 0 _
        · simp only [if_neg ha] at hd ⊢
          rw [Res.bind_eq_ok] at hd
          obtain ⟨⟨mu, s⟩, hq, hd⟩ := hd
          rw [Res.bind_eq_ok] at hd
          obtain ⟨g, hg, hd⟩ := hd
          obtain ⟨hs, hvm⟩ := hw l hl mu s hq
          obtain ⟨hlight, i, hsi, hall⟩ := posWidth_withVel hq
          -- the derivative of the profile
          have hprof : IsDeriv (fun v => profAt (e.withVel v) l z x) e.vel g := by
            unfold profDerivVel at hg
            rw [if_neg hlight] at hg
            simp only at hg
            rw [Res.bind_eq_ok] at hg
            obtain ⟨ds, hds, hg⟩ := hg
            have hD := hp l hl x mu s ds hs hds
            have hcomp : ∀ w', HasDerivAt (widthOf e.wtype i e.light mu) w' e.vel → IsDeriv (fun v => profAt (e.withVel v) l z x) e.vel (ds * w') := by
              intro w' hw'
              rw [hsi] at hD
              refine IsDeriv.congr (IsDeriv.comp hD hw') (Eventually.of_forall fun v => ?_) rfl
              unfold profAt
              rw [hall v, Res.bind_ok]
            cases hwt : e.wtype with
            | instrument =>
              simp only [hwt, Res.ok.injEq] at hg
              have hc0 : HasDerivAt (widthOf e.wtype i e.light mu) 0 e.vel := by
                rw [hwt]
                exact hasDerivAt_const e.vel (√(i * i + 0 * 0))
              have := hcomp 0 hc0
              rw [mul_zero] at this
              exact hg ▸ this
            | combined =>
              simp only [hwt] at hg
              rw [if_neg hs.ne'] at hg
              have hg := Res.ok.inj hg
              have hc0 := widthOf_deriv e.wtype i e.light mu e.vel (Or.inl hwt) (hsi ▸ hs)
              refine IsDeriv.congr (hcomp _ hc0) (Eventually.of_forall fun _ => rfl) ?_
              rw [← hg, ← hsi]
              ring
            | velocity =>
              simp only [hwt] at hg
              have hg := Res.ok.inj hg
              have hc0 := widthOf_deriv e.wtype i e.light mu e.vel (Or.inr hwt) (hsi ▸ hs)
              refine IsDeriv.congr (hcomp _ hc0) (Eventually.of_forall fun _ => rfl) ?_
              have hv := hvm hwt
              have hsv : s = e.vel * mu / e.light := by rw [hsi, hwt, widthOf_velocity hv]
              rw [← hg, ← hsi]
              have h1 : 1 / e.light * mu * (1 / e.light * mu) * e.vel / s = 1 / e.light * mu := by
                rw [div_eq_iff hs.ne', hsv]
                ring
              rw [h1]
              ring
          obtain ⟨f, hf, hfd⟩ := hprof
          refine ⟨fun v => if e.emission then e.sign * a * f v else c * (e.sign * a * f v), ?_, ?_⟩
          · filter_upwards [hf] with v hv
            rw [hv, Res.bind_ok]
            have h3 := (withVel_same e v).2.2.1
            unfold Elt.sign
            rw [h3]
          · have := Res.ok.inj hd
            rw [← this]
            by_cases hem : e.emission = true
            · simp only [hem, if_true]
              exact hfd.const_mul _
            · simp only [hem, if_false]
              exact (hfd.const_mul _).const_mul c

end EltDeriv
end Amazed
