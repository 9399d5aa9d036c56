import Verif.Props.EltDerivProps

/-! # C157, C158: the continuum, the redshift, the position of an element -/

namespace Amazed
namespace EltDeriv

open Filter Topology Real
open Profile (IsDeriv)

/-! ## The continuum -/

theorem sumLines_affine {F G : Line → Res ℝ} {H : Line → Res ℝ} {k : ℝ} : ∀ (ls : List Line) (a b c m d : ℝ),
    (∀ l ∈ ls, ∀ u v, F l = .ok u → G l = .ok v → H l = .ok (u + k * v)) → sumLines F ls a = .ok m → sumLines G ls b = .ok d →
    sumLines H ls c = .ok (c + (m - a) + k * (d - b)) := by
  intro ls
  induction ls with
  | nil => intro a b c m d _ h1 h2; simp only [sumLines, Res.ok.injEq] at h1 h2; simp [sumLines, h1, h2]
  | cons l ls ih =>
    intro a b c m d hH h1 h2
    simp only [sumLines] at h1 h2 ⊢
    have H' : ∀ l ∈ ls, ∀ u v, F l = .ok u → G l = .ok v → H l = .ok (u + k * v) := fun m hm => hH m (List.mem_cons_of_mem _ hm)
    by_cases ho : l.out = true
    · rw [if_pos ho] at h1 h2 ⊢
      exact ih a b c m d H' h1 h2
    · rw [if_neg ho, Res.bind_eq_ok] at h1 h2
      obtain ⟨u, hu, h1⟩ := h1
      obtain ⟨v, hv, h2⟩ := h2
      rw [if_neg ho, hH l (List.mem_cons_self ..) u v hu hv, Res.bind_ok, ih _ _ (c + (u + k * v)) m d H' h1 h2]
      congr 1
      ring

/-- **C157.** The model is affine in the scale of the continuum, with for slope what the element gives for its derivative with respect to it; it requires that no amplitude is negative. -/
theorem C157_continuum_partial {e : Elt} {x z c m d : ℝ} (hm : modelAt e x z 0 = .ok m) (h : derivCont e x z c = .ok d) (ha : ∀ l ∈ e.lines, ∀ a, l.amp = some a → 0 ≤ a) (k : ℝ) :
    modelAt e x z (k * c) = .ok (m + k * d) := by
  unfold modelAt at hm ⊢
  unfold derivCont at h
  by_cases ho : e.outside = true
  · rw [if_pos ho] at hm h ⊢
    rw [← Res.ok.inj hm, ← Res.ok.inj h]
    simp
  · rw [if_neg ho] at hm h ⊢
    rw [sumLines_affine (k := k) e.lines 0 0 0 m d ?_ hm h]
    · simp
    · intro l hl u v hu hv
      unfold lineModel at hu ⊢
      cases hamp : l.amp with
      | none =>
        simp only [hamp, Res.ok.injEq, ite_self] at hu hv ⊢
        rw [← hu, ← hv]; simp
      | some a =>
        simp only [hamp] at hu hv ⊢
        rw [if_neg (not_lt.2 (ha l hl a hamp))] at hu ⊢
        rw [Res.bind_eq_ok] at hu
        obtain ⟨p, hp, hu⟩ := hu
        rw [hp, Res.bind_ok]
        have hu := Res.ok.inj hu
        by_cases hem : e.emission = true
        · simp only [hem, if_true, Res.ok.injEq] at hu hv ⊢
          rw [← hu, ← hv]; simp
        · simp only [hem, Bool.false_eq_true, if_false] at hu hv ⊢
          rw [hp, Res.bind_ok] at hv
          have hv := Res.ok.inj hv
          rw [← hu, ← hv]
          congr 1
          ring

/-- A symmetric line at 1 with a negative amplitude, of an absorption element whose width is 1. -/
noncomputable def exNeg : Elt := ⟨[⟨1, 0, 0, symProf, some (-1), some 1, 1, false⟩], false, false, 1, 1, .instrument, 1, some (fun _ => true, fun _ => .ok 1)⟩

theorem exNeg_pos (amp : Option ℝ) : posWidth exNeg ⟨1, 0, 0, symProf, amp, some 1, 1, false⟩ 0 false = .ok (1, 1) := by
  unfold posWidth obsPos withWidth lineWidth exNeg
  simp

/-- **C157, the negation for negative amplitudes.** The model skips a line of a negative amplitude, the derivative with respect to the continuum does not: the model is null for all the scales of the continuum, with a derivative of 1. -/
theorem C157_negative_counterexample : (∀ c, modelAt exNeg 1 0 c = .ok 0) ∧ derivCont exNeg 1 0 1 = .ok 1 := by
  constructor
  · intro c
    unfold modelAt
    have : exNeg.outside = false := rfl
    rw [this]
    simp [sumLines, lineModel, exNeg]
  · have hp : profAt exNeg ⟨1, 0, 0, symProf, some (-1), some 1, 1, false⟩ 0 1 = .ok 1 := by
      unfold profAt
      rw [exNeg_pos, Res.bind_ok]
      simp [symProf, Profile.symVal]
    unfold derivCont
    have h1 : exNeg.outside = false := rfl
    have h2 : exNeg.emission = false := rfl
    have h3 : exNeg.lines = [⟨1, 0, 0, symProf, some (-1), some 1, 1, false⟩] := rfl
    rw [h1, h2, h3]
    simp only [Bool.false_eq_true, if_false, sumLines]
    rw [hp, Res.bind_ok]
    simp [Elt.sign, h2]

/-! ## The redshift -/

/-- The position of a line moves with the redshift at the speed of its position at null redshift. -/
theorem obsPos_deriv {e : Elt} {l : Line} {r : ℝ} (h : obsPos e l 0 false = .ok r) : e.light ≠ 0 ∧ ∀ z, obsPos e l z false = .ok (r * (1 + z)) := by
  unfold obsPos at h ⊢
  by_cases hl : e.light = 0
  · rw [if_pos hl] at h; exact absurd h (by simp)
  · refine ⟨hl, fun z => ?_⟩
    rw [if_neg hl] at h ⊢
    have := Res.ok.inj h
    simp only [Bool.false_eq_true, if_false] at this ⊢
    rw [← this]
    congr 1
    ring

/-- **C158, for a width which does not depend on the redshift.** When the width of each line is the same at all the redshifts around the current one, and no amplitude is negative, what the element gives for the derivative with respect to the
redshift is the derivative of its model under a continuum that depends on the redshift. -/
theorem C158_redshift_partial {e : Elt} {x z dc d : ℝ} {C : ℝ → ℝ} (h : derivZ e x z (C z) dc = .ok d) (hC : HasDerivAt C dc z) (hp : ∀ l ∈ e.lines, X0Ok l.prof)
    (ha : ∀ l ∈ e.lines, ∀ a, l.amp = some a → 0 ≤ a)
    (hw : ∀ l ∈ e.lines, l.out = false → ∃ s, 0 < s ∧ ∀ᶠ t in 𝓝 z, ∃ mu, posWidth e l t false = .ok (mu, s)) :
    IsDeriv (fun t => modelAt e x t (C t)) z d := by
  unfold derivZ at h
  by_cases ho : e.outside = true
  · rw [if_pos ho] at h
    refine IsDeriv.congr (IsDeriv.const 0 z) (Eventually.of_forall fun v => ?_) (Res.ok.inj h)
    unfold modelAt
    rw [if_pos ho]
  · rw [if_neg ho] at h
    have key := IsDeriv.sumLines (F := fun t l => lineModel e x t (C t) l) (t := z) e.lines ?_ (fun _ => 0) 0 0 d (hasDerivAt_const _ _) h
    · refine IsDeriv.congr key (Eventually.of_forall fun v => ?_) (by ring)
      unfold modelAt
      rw [if_neg ho]
    · intro l hl hlo d hd
      unfold lineModel
      cases hamp : l.amp with
      | none =>
        simp only [hamp, Res.ok.injEq] at hd ⊢
        exact hd ▸ IsDeriv.const 0 _
      | some a =>
        simp only [hamp] at hd ⊢
        simp only [if_neg (not_lt.2 (ha l hl a hamp))]
        rw [Res.bind_eq_ok] at hd
        obtain ⟨⟨mu, s⟩, hq, hd⟩ := hd
        rw [Res.bind_eq_ok] at hd
        obtain ⟨r, hr, hd⟩ := hd
        rw [Res.bind_eq_ok] at hd
        obtain ⟨g, hg, hd⟩ := hd
        obtain ⟨hlight, hpos⟩ := obsPos_deriv hr
        obtain ⟨s', hs', hev⟩ := hw l hl hlo
        have hmu : ∀ {t m w}, posWidth e l t false = .ok (m, w) → m = r * (1 + t) := by
          intro t m w hm
          unfold posWidth at hm
          rw [hpos t, Res.bind_ok] at hm
          unfold withWidth at hm
          split at hm
          · exact absurd hm (by simp)
          · split at hm
            · exact absurd hm (by simp)
            · rw [Res.bind_eq_ok] at hm
              obtain ⟨_, _, hm⟩ := hm
              simp only [Res.ok.injEq, Prod.mk.injEq] at hm
              exact hm.1.symm
        have hss : s' = s := by
          obtain ⟨m, hm⟩ := hev.self_of_nhds
          rw [hq] at hm
          simp only [Res.ok.injEq, Prod.mk.injEq] at hm
          exact hm.2.symm
        subst hss
        have hD := hp l hl x mu s' g hs' hg
        rw [hmu hq] at hD
        have hr' : HasDerivAt (fun t : ℝ => r * (1 + t)) r z := by
          simpa using ((hasDerivAt_id z).const_add 1).const_mul r
        obtain ⟨f, hf, hfd⟩ := IsDeriv.congr (IsDeriv.comp (g := fun t : ℝ => r * (1 + t)) (t := z) hD hr') (G := fun t => profAt e l t x) (by
          filter_upwards [hev] with t ht
          obtain ⟨m, hm⟩ := ht
          unfold profAt
          rw [hm, Res.bind_ok, hmu hm]) rfl
        refine ⟨fun t => if e.emission then e.sign * a * f t else C t * (e.sign * a * f t), ?_, ?_⟩
        · filter_upwards [hf] with t ht
          rw [ht, Res.bind_ok]
        · by_cases hem : e.emission = true
          · simp only [hem, if_true] at hd ⊢
            have := Res.ok.inj hd
            rw [← this]
            refine (hfd.const_mul _).congr_deriv ?_
            ring
          · simp only [hem, Bool.false_eq_true, if_false] at hd ⊢
            rw [Res.bind_eq_ok] at hd
            obtain ⟨v, hv, hd⟩ := hd
            have := Res.ok.inj hd
            have hfv : f z = v := by
              have h1 := hf.self_of_nhds
              simp only [profAt] at h1
              rw [hq, Res.bind_ok, hv] at h1
              exact (Res.ok.inj h1).symm
            rw [← this]
            refine (hC.mul (hfd.const_mul (e.sign * a))).congr_deriv ?_
            rw [hfv]
            have hsg : e.sign = -1 := by unfold Elt.sign; simp [hem]
            rw [hsg]
            ring

/-- **C158, the negation for a width made of the velocity.** A symmetric emission line at 1 whose width is made of a velocity that is equal to the speed of light: at null redshift the derivative of the model at 2, one width from the centre,
is not what the element gives. -/
noncomputable def exVel : Elt := ⟨[⟨1, 0, 0, symProf, some 1, some 1, 1, false⟩], false, true, 1, 1, .velocity, 1, some (fun _ => true, fun _ => .ok 1)⟩

theorem exVel_pos {t : ℝ} (ht : 0 < 1 + t) : posWidth exVel ⟨1, 0, 0, symProf, some 1, some 1, 1, false⟩ t false = .ok (1 + t, 1 + t) := by
  unfold posWidth obsPos withWidth lineWidth exVel Elt.vel
  have : √((1 + t) * (1 + t)) = 1 + t := Real.sqrt_mul_self ht.le
  simp [this]

theorem C158_redshift_counterexample : ∃ d, derivZ exVel 2 0 0 0 = .ok d ∧ ¬ IsDeriv (fun t => modelAt exVel 2 t 0) 0 d ∧ IsDeriv (fun t => modelAt exVel 2 t 0) 0 (2 * d) := by
  have h1 : exVel.outside = false := rfl
  have h2 : exVel.emission = true := rfl
  have h3 : exVel.lines = [⟨1, 0, 0, symProf, some 1, some 1, 1, false⟩] := rfl
  have hd : derivZ exVel 2 0 0 0 = .ok (exp (-(1 / 2))) := by
    unfold derivZ
    rw [h1, h2, h3]
    have hp := exVel_pos (t := 0) (by norm_num)
    simp only [Bool.false_eq_true, if_false, sumLines, if_true]
    rw [hp, Res.bind_ok]
    have : obsPos exVel ⟨1, 0, 0, symProf, some 1, some 1, 1, false⟩ 0 false = .ok 1 := by unfold obsPos exVel; simp
    rw [this, Res.bind_ok]
    simp only [symProf, Profile.symDerivX0]
    norm_num [Elt.sign, h2]
  have hD : IsDeriv (fun t => modelAt exVel 2 t 0) 0 (2 * exp (-(1 / 2))) := by
    refine ⟨fun t => exp (-(1 / 2) * ((2 - (1 + t)) / (1 + t)) * ((2 - (1 + t)) / (1 + t))), ?_, ?_⟩
    · filter_upwards [eventually_gt_nhds (show (-1 : ℝ) < 0 by norm_num)] with t ht
      have h0 : 0 < 1 + t := by linarith
      unfold modelAt
      rw [h1, h3]
      simp only [Bool.false_eq_true, if_false, sumLines, lineModel]
      rw [if_neg (by norm_num)]
      unfold profAt
      rw [exVel_pos h0, Res.bind_ok]
      simp only [symProf, Profile.symVal]
      rw [if_neg h0.ne', Res.bind_ok, Res.bind_ok, h2]
      simp [Elt.sign, h2]
    · have ha : HasDerivAt (fun t : ℝ => 2 - (1 + t)) (-1) 0 := by simpa using ((hasDerivAt_id (0 : ℝ)).const_add 1).const_sub 2
      have hb : HasDerivAt (fun t : ℝ => 1 + t) 1 0 := (hasDerivAt_id (0 : ℝ)).const_add 1
      have hc := ha.fun_div hb (by norm_num)
      have hdd := ((hc.const_mul (-(1 / 2))).fun_mul hc).exp
      refine hdd.congr_deriv ?_
      norm_num
      ring
  refine ⟨_, hd, fun hcon => ?_, hD⟩
  have := hD.unique hcon
  have hpos := exp_pos (-(1 / 2 : ℝ))
  linarith

/-! ## Position -/

/-- The lines of an element which are not outside. -/
def Elt.visible (e : Elt) : List Line := e.lines.filter fun l => !l.out

theorem posSum_eq {e : Elt} {z : ℝ} {asym : Bool} (hl : e.light ≠ 0) : ∀ (ls : List Line) (a : ℝ × Nat),
    posSum e z asym ls a = .ok (a.1 + ((ls.filter fun l => !l.out).map fun l => l.pos * (1 + z) * (1 + l.off / e.light) - if asym then l.delta else 0).sum, a.2 + (ls.filter fun l => !l.out).length) := by
  intro ls
  induction ls with
  | nil => intro a; simp [posSum]
  | cons l ls ih =>
    intro a
    simp only [posSum]
    by_cases ho : l.out = true
    · rw [if_pos ho, ih]
      simp [ho]
    · have ho' : l.out = false := by simpa using ho
      rw [if_neg ho]
      unfold obsPos
      rw [if_neg hl, Res.bind_ok, ih]
      simp only [ho', Bool.not_false, List.filter_cons_of_pos, List.map_cons, List.sum_cons, List.length_cons, Res.ok.injEq, Prod.mk.injEq]
      refine ⟨?_, by omega⟩
      cases asym <;> simp <;> ring

/-- **C158.** The position of an element is the mean of the positions of its lines which are not outside of the range; with none, it is an error. -/
theorem C158_position {e : Elt} (hl : e.light ≠ 0) (z : ℝ) (asym : Bool) :
    meanPos e z asym = if e.visible = [] then .throw .INTERNAL_ERROR else
      .ok ((e.visible.map fun l => l.pos * (1 + z) * (1 + l.off / e.light) - if asym then l.delta else 0).sum / (e.visible.length : ℝ)) := by
  unfold meanPos
  rw [posSum_eq hl, Res.bind_ok]
  change (if 0 + e.visible.length = 0 then _ else _) = _
  by_cases hv : e.visible = []
  · rw [if_pos (by rw [hv]; rfl), if_pos hv]
  · rw [if_neg (by simpa using hv), if_neg hv]
    simp [Elt.visible]

theorem sum_between {α : Type} (f : α → ℝ) {lo hi : ℝ} : ∀ l : List α, (∀ a ∈ l, lo ≤ f a ∧ f a ≤ hi) → (l.length : ℝ) * lo ≤ (l.map f).sum ∧ (l.map f).sum ≤ (l.length : ℝ) * hi
  | [], _ => by simp
  | a :: l, h => by
    obtain ⟨h1, h2⟩ := sum_between f l fun b hb => h b (List.mem_cons_of_mem _ hb)
    obtain ⟨h3, h4⟩ := h a (List.mem_cons_self ..)
    simp only [List.length_cons, List.map_cons, List.sum_cons, Nat.cast_add, Nat.cast_one]
    constructor <;> nlinarith

/-- **C158.** It lies between the positions of its lines. -/
theorem C158_between {e : Elt} {z mu lo hi : ℝ} {asym : Bool} (h : meanPos e z asym = .ok mu) (hb : ∀ l ∈ e.lines, l.out = false → ∃ m, obsPos e l z asym = .ok m ∧ lo ≤ m ∧ m ≤ hi) : lo ≤ mu ∧ mu ≤ hi := by
  have hl : e.light ≠ 0 := by
    intro h0
    have hv : e.visible = [] := by
      by_contra hne
      obtain ⟨l, hl⟩ := List.exists_mem_of_ne_nil _ hne
      unfold Elt.visible at hl
      rw [List.mem_filter] at hl
      obtain ⟨m, hm, -⟩ := hb l hl.1 (by simpa using hl.2)
      unfold obsPos at hm
      rw [if_pos h0] at hm
      exact absurd hm (by simp)
    have hp : ∀ (ls : List Line) (a : ℝ × Nat), (ls.filter fun l => !l.out) = [] → posSum e z asym ls a = .ok a := by
      intro ls
      induction ls with
      | nil => intro a _; rfl
      | cons l ls ih =>
        intro a hf
        by_cases ho : l.out = true
        · simp only [posSum]
          rw [if_pos ho]
          exact ih a (by simpa [ho] using hf)
        · simp [ho] at hf
    unfold meanPos at h
    rw [hp e.lines (0, 0) hv, Res.bind_ok] at h
    simp at h
  rw [C158_position hl] at h
  by_cases hv : e.visible = []
  · rw [if_pos hv] at h; exact absurd h (by simp)
  · rw [if_neg hv] at h
    have hlen : (0 : ℝ) < (e.visible.length : ℝ) := by exact_mod_cast List.length_pos_iff.2 hv
    have := sum_between (fun l : Line => l.pos * (1 + z) * (1 + l.off / e.light) - if asym then l.delta else 0) (lo := lo) (hi := hi) e.visible (by
      intro l hl'
      unfold Elt.visible at hl'
      rw [List.mem_filter] at hl'
      obtain ⟨m, hm, h1, h2⟩ := hb l hl'.1 (by simpa using hl'.2)
      unfold obsPos at hm
      rw [if_neg hl] at hm
      have := Res.ok.inj hm
      have e1 : (l.pos * (1 + z) * (1 + l.off / e.light) - if asym then l.delta else 0) = m := by
        rw [← this]
        cases asym <;> simp
      rw [e1]
      exact ⟨h1, h2⟩)
    rw [← Res.ok.inj h, le_div_iff₀ hlen, div_le_iff₀ hlen]
    constructor <;> linarith [this.1, this.2]

/-- **C158.** The square of the width of a line is the sum of the squares of the width of the LSF at its position and of the velocity times its position over the speed of light, without the part its type leaves out. -/
theorem C158_width {e : Elt} {mu s i : ℝ} {av : ℝ → Bool} {L : ℝ → Res ℝ} (hl : e.lsf = some (av, L)) (hi : L mu = .ok i) (hlight : e.light ≠ 0) (h : lineWidth e mu = .ok s) :
    0 ≤ s ∧ s ^ 2 = (if e.wtype = .velocity then 0 else i ^ 2) + (if e.wtype = .instrument then 0 else (e.vel / e.light * mu) ^ 2) := by
  unfold lineWidth at h
  rw [hl] at h
  simp only at h
  rw [hi, Res.bind_ok, if_neg hlight] at h
  have := Res.ok.inj h
  rw [← this]
  refine ⟨Real.sqrt_nonneg _, ?_⟩
  rw [Real.sq_sqrt (by nlinarith [mul_self_nonneg (match e.wtype with | .velocity => 0 | _ => i), mul_self_nonneg (match e.wtype with | .instrument => 0 | _ => 1 * e.vel / e.light * mu)])]
  cases e.wtype <;> simp <;> ring

/-- **C158.** A position at which the LSF is not available is refused, whatever the width is made of. -/
theorem C158_refused {e : Elt} {mu : ℝ} {av : ℝ → Bool} {L : ℝ → Res ℝ} (hl : e.lsf = some (av, L)) (h : av mu = false) : withWidth e mu = .throw .INTERNAL_ERROR := by
  unfold withWidth
  rw [hl]
  simp [h]

/-- **C158.** The ratio of the amplitude of an element to its error is that of a line that is not outside, whose nominal amplitude is not null; an element without such a line has no amplitude. -/
theorem C158_amplitude (e : Elt) : (eltAmp e = none ∧ eltErr e = none ∧ (e.outside = true ∨ ∀ l ∈ e.lines, l.out = true ∨ l.nominal = 0)) ∨
    ∃ l ∈ e.lines, l.out = false ∧ l.nominal ≠ 0 ∧ eltAmp e = l.amp.map (· / l.nominal) ∧ eltErr e = l.std.map (· / l.nominal) := by
  unfold eltAmp eltErr
  by_cases ho : e.outside = true
  · left; simp [ho]
  · rw [if_neg ho, if_neg ho]
    generalize e.lines = ls
    induction ls with
    | nil => left; simp [firstNominal]
    | cons l ls ih =>
      by_cases hc : l.out = false ∧ l.nominal ≠ 0
      · right
        refine ⟨l, List.mem_cons_self .., hc.1, hc.2, ?_, ?_⟩ <;> simp only [firstNominal] <;> rw [if_pos hc]
      · simp only [firstNominal]
        rw [if_neg hc, if_neg hc]
        rcases ih with ⟨h1, h2, h3⟩ | ⟨m, hm, h⟩
        · left
          refine ⟨h1, h2, Or.inr ?_⟩
          rcases h3 with h3 | h3
          · exact absurd h3 ho
          · intro k hk
            rcases List.mem_cons.1 hk with rfl | hk
            · by_cases hko : k.out = true
              · exact Or.inl hko
              · exact Or.inr (by by_contra hn; exact hc ⟨by simpa using hko, hn⟩)
            · exact h3 k hk
        · right
          exact ⟨m, List.mem_cons_of_mem _ hm, h⟩

/-- The hypotheses of C157 and C158 on a case: a symmetric absorption line and its derivatives. -/
noncomputable def exAbs : Elt := { exNeg with lines := [⟨1, 0, 0, symProf, some 1, some 1, 1, false⟩] }

example : ∃ d, derivVel { exVel with wtype := .combined } 2 0 0 = .ok d ∧ IsDeriv (fun v => modelAt (Elt.withVel { exVel with wtype := .combined } v) 2 0 0) 1 d := by
  have hp : posWidth { exVel with wtype := .combined } ⟨1, 0, 0, symProf, some 1, some 1, 1, false⟩ 0 false = .ok (1, √2) := by
    unfold posWidth obsPos withWidth lineWidth exVel Elt.vel
    norm_num
  have hs : (0 : ℝ) < √2 := Real.sqrt_pos.2 (by norm_num)
  obtain ⟨-, d, hd, -⟩ := Profile.C56_sym_deriv 2 1 (√2) hs.ne'
  have hv : ∃ v, derivVel { exVel with wtype := .combined } 2 0 0 = .ok v := by
    unfold derivVel
    change ∃ v, (if false = true then _ else sumLines _ [⟨1, 0, 0, symProf, some 1, some 1, 1, false⟩] 0) = _
    simp only [Bool.false_eq_true, if_false, sumLines]
    rw [if_neg (by norm_num), hp, Res.bind_ok]
    unfold profDerivVel
    rw [if_neg (by unfold exVel; norm_num)]
    simp only
    rw [show symProf.dSig 2 1 √2 = .ok d from hd, Res.bind_ok, if_neg hs.ne', Res.bind_ok, Res.bind_ok]
    exact ⟨_, rfl⟩
  obtain ⟨v, hv⟩ := hv
  refine ⟨v, hv, ?_⟩
  refine C157_velocity hv ?_ ?_
  · intro l hl
    have : l = ⟨1, 0, 0, symProf, some 1, some 1, 1, false⟩ := by simpa [exVel] using hl
    rw [this]
    exact sym_sigOk
  · intro l hl mu s hq
    have : l = ⟨1, 0, 0, symProf, some 1, some 1, 1, false⟩ := by simpa [exVel] using hl
    rw [this, hp] at hq
    simp only [Res.ok.injEq, Prod.mk.injEq] at hq
    rw [← hq.2]
    exact ⟨hs, fun h => by simp at h⟩

example : ∃ d, derivZ exAbs 2 0 1 0 = .ok d ∧ IsDeriv (fun t => modelAt exAbs 2 t 1) 0 d := by
  have hp : ∀ t, posWidth exAbs ⟨1, 0, 0, symProf, some 1, some 1, 1, false⟩ t false = .ok (1 + t, 1) := by
    intro t
    unfold posWidth obsPos withWidth lineWidth exAbs exNeg
    simp
  have hd : ∃ d, derivZ exAbs 2 0 1 0 = .ok d := by
    unfold derivZ
    change ∃ v, (if false = true then _ else sumLines _ [⟨1, 0, 0, symProf, some 1, some 1, 1, false⟩] 0) = _
    simp only [Bool.false_eq_true, if_false, sumLines]
    rw [hp, Res.bind_ok]
    have : obsPos exAbs ⟨1, 0, 0, symProf, some 1, some 1, 1, false⟩ 0 false = .ok 1 := by unfold obsPos exAbs exNeg; simp
    rw [this, Res.bind_ok]
    have : exAbs.emission = false := rfl
    simp [symProf, Profile.symDerivX0, Profile.symVal, this]
  obtain ⟨d, hd⟩ := hd
  refine ⟨d, hd, ?_⟩
  refine C158_redshift_partial (C := fun _ => 1) hd (hasDerivAt_const _ _) ?_ ?_ ?_
  · intro l hl
    have : l = ⟨1, 0, 0, symProf, some 1, some 1, 1, false⟩ := by simpa [exAbs] using hl
    rw [this]
    exact sym_x0Ok
  · intro l hl a ha
    have : l = ⟨1, 0, 0, symProf, some 1, some 1, 1, false⟩ := by simpa [exAbs] using hl
    rw [this] at ha
    simp only [Option.some.injEq] at ha
    rw [← ha]; norm_num
  · intro l hl _
    have : l = ⟨1, 0, 0, symProf, some 1, some 1, 1, false⟩ := by simpa [exAbs] using hl
    rw [this]
    exact ⟨1, one_pos, Eventually.of_forall fun t => ⟨_, hp t⟩⟩

end EltDeriv
end Amazed
