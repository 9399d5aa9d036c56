import Verif.Model.TplModel
import Verif.Props.RebinProps
import Verif.Props.RangeProps
import Verif.Props.SpectralAxisProps
import Verif.Props.TemplateProps
import Verif.Props.TplCombBasic

set_option linter.unusedVariables false
set_option linter.unusedSectionVars false

/-! # C166: the template on the axis of the spectrum, and the model spectrum of a candidate -/

namespace Amazed
namespace TplModel

/-- Specification: the rest wavelengths of the fit: in the range of wavelengths, on the axis of the spectrum and on the template. -/
def Common (tx sx : List ℝ) (lr : Range ℝ) (z w : ℝ) : Prop := lr.Mem (w * (1 + z)) ∧ TplComb.Covered sx (w * (1 + z)) ∧ TplComb.Covered tx w

theorem covered_ends {l : List ℝ} {x : ℝ} (h : TplComb.Covered l x) : ∃ hl : 0 < l.length, l[0] ≤ x ∧ x ≤ l[l.length - 1] := by
  obtain ⟨a, b, h1, h2, h3, h4⟩ := h
  have hl : 0 < l.length := by
    cases l with
    | nil => simp at h1
    | cons => simp
  refine ⟨hl, ?_, ?_⟩
  · rw [List.head?_eq_getElem?, List.getElem?_eq_getElem hl] at h1; cases h1; exact h3
  · rw [List.getLast?_eq_getElem?, List.getElem?_eq_getElem (by omega)] at h2; cases h2; exact h4

theorem covered_scale {l : List ℝ} {c x : ℝ} (hc : 0 < c) : TplComb.Covered (l.map (· / c)) x ↔ TplComb.Covered l (x * c) := by
  unfold TplComb.Covered
  simp only [List.head?_map, List.getLast?_map, Option.map_eq_some_iff]
  constructor
  · rintro ⟨a, b, ⟨a', h1, rfl⟩, ⟨b', h2, rfl⟩, h3, h4⟩
    exact ⟨a', b', h1, h2, (div_le_iff₀ hc).1 h3, (le_div_iff₀ hc).1 h4⟩
  · rintro ⟨a, b, h1, h2, h3, h4⟩
    exact ⟨a / c, b / c, ⟨a, h1, rfl⟩, ⟨b, h2, rfl⟩, (div_le_iff₀ hc).2 h3, (le_div_iff₀ hc).2 h4⟩

theorem restRange_mem {lr : Range ℝ} {z x : ℝ} (hz : 0 < 1 + z) : (restRange lr z).Mem x ↔ lr.Mem (x * (1 + z)) := by
  unfold restRange Range.Mem
  simp only
  rw [div_le_iff₀ hz, le_div_iff₀ hz]

theorem shift_back (sx : List ℝ) {z : ℝ} (hz : 0 < 1 + z) : ∃ a : SAxis ℝ, SAxis.shift (SAxis.ofList sx) (1 + z) .backward = .ok a ∧ a.samples = sx.map (· / (1 + z)) := by
  refine ⟨{ SAxis.ofList sx with samples := sx.map (· / (1 + z)), sorted := SAxis.scaleCache (1 + z) sx.length none }, ?_, rfl⟩
  unfold SAxis.shift
  rw [if_neg (not_lt.2 hz.le)]
  simp only [hz.ne', if_false]
  unfold SAxis.div
  rw [if_neg hz.ne']
  rfl

section
variable {tx ty te sx : List ℝ} {lr : Range ℝ} {z thr : ℝ}

open Classical in
/-- **C166** The resampled template has one sample for each sample of the spectrum, at its wavelength over `1 + z`. The range of the fit is exactly the rest
wavelengths that are in the range of wavelengths, on the spectrum and on the template, and is not empty. Every sample of that range is the linear interpolation of
the template; the samples that the resampling does not cover are null. The overlap is the fraction of the samples of the range of wavelengths that are kept, and it
is positive and at least the threshold. -/
theorem C166_rebin (htx : tx.Pairwise (· < ·)) (hty : ty.length = tx.length) (hte : te.length = tx.length) (hpos : ∀ x ∈ tx, 0 < x)
    (hsx : sx.Pairwise (· < ·)) (hz : -1 < z) {r : Reb ℝ} (h : rebinTemplate (Rebin.linear .no tx ty te) tx sx lr z thr = .ok r) :
    r.rest = sx.map (· / (1 + z)) ∧ r.cells.length = sx.length ∧ r.cur.b ≤ r.cur.e ∧ (∀ w, r.cur.Mem w ↔ Common tx sx lr z w) ∧
    (∀ (i : Nat) (w : ℝ) (c : Rebin.Cell ℝ), r.rest[i]? = some w → r.cells[i]? = some c →
      (r.cur.Mem w → Rebin.Covered tx r.cur w) ∧ (Rebin.Covered tx r.cur w → c.mask = 1 ∧ OnPolyline tx ty w c.flux) ∧
      (¬ Rebin.Covered tx r.cur w → c.mask = 0 ∧ c.flux = 0)) ∧
    thr ≤ r.ov ∧ 0 < r.ov ∧ r.ov = ((((r.rest.zip (r.cells.map (·.mask))).filter (fun p => decide ((restRange lr z).b ≤ p.1 ∧ p.1 ≤ (restRange lr z).e ∧ p.2 ≠ 0))).length : ℝ) /
        ((r.rest.filter (fun x => decide ((restRange lr z).b ≤ x ∧ x ≤ (restRange lr z).e))).length : ℝ)) := by
  have hz' : 0 < 1 + z := by linarith
  unfold rebinTemplate at h
  rw [if_neg hz'.ne'] at h
  obtain ⟨a, ha, hs⟩ := shift_back sx hz'
  rw [ha, Res.bind_ok] at h
  rw [hs] at h
  obtain ⟨s, h1, h⟩ := Res.bind_eq_ok.1 h
  obtain ⟨t, h2, h⟩ := Res.bind_eq_ok.1 h
  obtain ⟨cells, h3, h⟩ := Res.bind_eq_ok.1 h
  obtain ⟨ov, h4, h⟩ := Res.bind_eq_ok.1 h
  by_cases hov : ov < thr ∨ ov ≤ 0
  · rw [if_pos hov] at h; cases h
  rw [if_neg hov] at h
  cases h
  push Not at hov
  obtain ⟨s1, s2⟩ := TplComb.clamp_mem h1
  obtain ⟨t1, t2⟩ := TplComb.clamp_mem h2
  obtain ⟨hl, tb0, tb1⟩ := covered_ends ((t2 t.b).1 ⟨le_refl _, t1.le⟩).2
  obtain ⟨_, te0, te1⟩ := covered_ends ((t2 t.e).1 ⟨t1.le, le_refl _⟩).2
  have hl2 : 2 ≤ tx.length := by
    by_contra hc
    have e : tx.length - 1 = 0 := by omega
    simp only [e] at te1
    linarith
  have hint : Range.hasIntersection t s = true := by
    by_contra hc
    have hi : (Range.intersect t s ⟨0, 0⟩).2 = ⟨0, 0⟩ := by unfold Range.intersect; rw [if_neg hc]
    rw [hi, Rebin.C37_refuses .no tx ty te _ ⟨0, 0⟩ hl (.inl (hpos _ (List.getElem_mem hl)))] at h3
    cases h3
  have hi : (Range.intersect t s ⟨0, 0⟩).2 = ⟨max t.b s.b, min t.e s.e⟩ := by unfold Range.intersect; rw [if_pos hint]
  have hle : max t.b s.b ≤ min t.e s.e := by simpa [Range.hasIntersection] using hint
  rw [hi] at h3 ⊢
  have hb : tx[0] ≤ (⟨max t.b s.b, min t.e s.e⟩ : Range ℝ).b := le_trans tb0 (le_max_left _ _)
  have he : (⟨max t.b s.b, min t.e s.e⟩ : Range ℝ).e ≤ tx[tx.length - 1] := le_trans (min_le_left _ _) te1
  have hsr : (sx.map (· / (1 + z))).Pairwise (· ≤ ·) := by
    rw [List.pairwise_map]
    exact hsx.imp fun hab => div_le_div_of_nonneg_right hab.le hz'.le
  obtain ⟨cells', c1, c2, c3⟩ := Rebin.C37_linear_partial .no tx ty te (sx.map (· / (1 + z))) ⟨max t.b s.b, min t.e s.e⟩ htx hty hte hsr (by simp) hl hb he
  rw [h3] at c1
  cases c1
  refine ⟨rfl, by rw [c2]; simp, hle, fun w => ?_, fun i w c hw hc => ?_, hov.1, hov.2, ?_⟩
  · have : (⟨max t.b s.b, min t.e s.e⟩ : Range ℝ).Mem w ↔ t.Mem w ∧ s.Mem w := by
      unfold Range.Mem
      simp only [max_le_iff, le_min_iff]
      tauto
    rw [this, t2, s2, restRange_mem hz', covered_scale hz']
    unfold Common
    tauto
  · obtain ⟨d1, d2⟩ := c3 i w c hw hc
    refine ⟨fun hm => ?_, fun hm => ⟨(d1 hm).1, (d1 hm).2.1⟩, fun hm => ⟨(d2 hm).1, (d2 hm).2.1⟩⟩
    exact (Rebin.C37_covered tx _ htx hl2 hb he w).1 hm.1 hm.2
  · have := SAxis.C36_overlapFraction (sx.map (· / (1 + z))) (restRange lr z) (cells.map (·.mask)) (by rw [List.length_map, List.length_map, c2]; simp)
    rw [h4] at this
    cases this
    rfl

/-! ## The model spectrum -/

/-- Specification: the dust coefficient at a rest wavelength for the colour excess `eb`. -/
def DustAt (x : Ext ℝ) (eb w d : ℝ) : Prop :=
  if 0 < eb then ∃ k, x.ebmvIndex eb = .ok k ∧ if 0 ≤ k then x.c.dust k w = .ok d else d = 1 else d = 1

/-- Specification: the IGM coefficient at a rest wavelength for the curve `mi`. -/
def IgmAt (x : Ext ℝ) (z : ℝ) (mi : Int) (w g : ℝ) : Prop :=
  if 0 ≤ mi ∧ w ≤ x.c.igmMax then ∃ zi, x.c.zIndex z = some zi ∧ x.c.igm zi mi w = .ok g else g = 1

theorem did_ok {β : Type} {r : Tpl.T ℝ × Res β} {t : Tpl.T ℝ} (h : did r = .ok t) : (∃ u, r.2 = .ok u) ∧ t = r.1 := by
  unfold did at h
  obtain ⟨u, h1, h2⟩ := Res.bind_eq_ok.1 h
  cases h2
  exact ⟨⟨u, h1⟩, rfl⟩

/-- The samples of a template that satisfies the invariant. -/
theorem inv_flux {c : Tpl.Curves ℝ} {axis : List ℝ} {hd hi : Bool} {t : Tpl.T ℝ} {s : Tpl.Spec ℝ} (h : Tpl.Inv c axis hd hi t s) (k : Nat) (w : ℝ) (hw : axis[k]? = some w) :
    ∃ x d g, s.base[k]? = some x ∧ Tpl.IsDust c s.ext k w d ∧ Tpl.IsIgm c hi s.ext k w g ∧ t.flux[k]? = some (x * d * g) := by
  cases hext : s.ext with
  | none =>
    obtain ⟨h1, h2⟩ := h.off hext
    obtain ⟨x, hx⟩ := Tpl.getElem_some (l := s.base) (k := k) (by rw [h.blen]; exact (List.getElem?_eq_some_iff.1 hw).1)
    exact ⟨x, 1, 1, hx, rfl, rfl, by rw [h2, hx, mul_one, mul_one]⟩
  | some v =>
    obtain ⟨a, b, z, kd, i⟩ := v
    obtain ⟨_, _, _, _, _, _, _, _, _, _, _, _, _, h14⟩ := h.on _ _ _ _ _ hext
    obtain ⟨x, d, g, e1, e2, e3, e4, e5, e6⟩ := h14 k w hw
    rw [hext] at e4 e5
    exact ⟨x, d, g, e1, e4, e5, e6⟩

/-- The template before the amplitude: without extinctions, or configured with the asked indices. -/
theorem ext_inv {x : Ext ℝ} {eb : ℝ} {mi : Int} {z : ℝ} {r : Reb ℝ} (hs : r.rest.Pairwise (· < ·)) (hl : r.cells.length = r.rest.length) {t0 t1 t2 : Tpl.T ℝ}
    (h0 : initExt x eb mi z r = .ok t0) (h1 : dustExt x eb t0 = .ok t1) (h2 : igmExt x mi t1 = .ok t2) :
    ∃ (hd hi : Bool) (e : Option (Int × Int × ℝ × Int × Int)), Tpl.Inv x.c r.rest hd hi t2 ⟨r.cells.map (·.flux), e⟩ ∧ (-1 < mi → hi = true) ∧
      ((¬ (0 < eb) ∧ ¬ (-1 < mi) ∧ e = none) ∨ ∃ (ks ke : Nat) (kd : Int), Range.closedIdx r.cur r.rest = .ok (ks, ke) ∧
        e = some ((ks : Int), (ke : Int), z, kd, if -1 < mi then mi else -1) ∧ (if 0 < eb then x.ebmvIndex eb = .ok kd else kd = -1)) := by
  have hs' := pairwise_le_of_lt hs
  have hlen : (r.cells.map (·.flux)).length = r.rest.length := by rw [List.length_map, hl]
  by_cases hx : 0 < eb ∨ -1 < mi
  · unfold initExt at h0
    rw [if_pos hx] at h0
    obtain ⟨⟨ks, ke⟩, hk, h0⟩ := Res.bind_eq_ok.1 h0
    obtain ⟨⟨u, hu⟩, rfl⟩ := did_ok h0
    generalize (x.hd0 || x.hd) = hd at *
    generalize (x.hi0 || x.hi) = hi at *
    have i0 : Tpl.Inv x.c r.rest hd hi (Tpl.init x.c (Tpl.make r.rest (r.cells.map (·.flux)) hd hi) (ks : Int) (ke : Int) z).1 ⟨r.cells.map (·.flux), some ((ks : Int), (ke : Int), z, -1, -1)⟩ :=
      Tpl.inv_step x.c hs' (Tpl.inv_make x.c r.rest _ hd hi hlen) (.init (ks : Int) (ke : Int) z) hu
    dsimp only at h1 i0
    -- the dust
    have i1 : ∃ kd : Int, Tpl.Inv x.c r.rest hd hi t1 ⟨r.cells.map (·.flux), some ((ks : Int), (ke : Int), z, kd, -1)⟩ ∧ (if 0 < eb then x.ebmvIndex eb = .ok kd else kd = -1) := by
      unfold dustExt at h1
      by_cases hb : 0 < eb
      · rw [if_pos hb] at h1
        simp only [if_pos hb]
        split at h1
        · cases h1
        · obtain ⟨k, hk1, h1⟩ := Res.bind_eq_ok.1 h1
          by_cases hkk : k ≠ -1
          · rw [if_pos hkk] at h1
            obtain ⟨⟨b, hb'⟩, rfl⟩ := did_ok h1
            exact ⟨k, Tpl.inv_step x.c hs' i0 (.dust k) (by show ((Tpl.applyDust x.c _ k).2 >>= fun _ => Res.ok ()) = _; rw [hb']; rfl), hk1⟩
          · rw [if_neg hkk] at h1
            cases h1
            push Not at hkk
            subst hkk
            exact ⟨-1, i0, hk1⟩
      · rw [if_neg hb] at h1
        cases h1
        simp only [if_neg hb]
        exact ⟨-1, i0, rfl⟩
    obtain ⟨kd, i1, hkd⟩ := i1
    unfold igmExt at h2
    by_cases hm : -1 < mi
    · rw [if_pos hm] at h2
      by_cases hI : t1.hasIgm = false
      · rw [if_pos hI] at h2; cases h2
      · rw [if_neg hI] at h2
        obtain ⟨⟨b, hb'⟩, rfl⟩ := did_ok h2
        refine ⟨hd, hi, _, Tpl.inv_step x.c hs' i1 (.igm mi) (by show ((Tpl.applyIgm x.c _ mi).2 >>= fun _ => Res.ok ()) = _; rw [hb']; rfl), fun _ => ?_, .inr ⟨ks, ke, kd, hk, ?_, hkd⟩⟩
        · rw [← i1.hi_eq]; simpa using hI
        · rw [if_pos hm]; rfl
    · rw [if_neg hm] at h2
      cases h2
      exact ⟨hd, hi, _, i1, fun h => absurd h hm, .inr ⟨ks, ke, kd, hk, by rw [if_neg hm], hkd⟩⟩
  · unfold initExt at h0
    rw [if_neg hx] at h0
    cases h0
    push Not at hx
    unfold dustExt at h1
    rw [if_neg (not_lt.2 hx.1)] at h1
    cases h1
    unfold igmExt at h2
    rw [if_neg (not_lt.2 hx.2)] at h2
    cases h2
    exact ⟨x.hd0, x.hi0, none, Tpl.inv_make x.c r.rest _ _ _ hlen, fun h => absurd h (not_lt.2 hx.2), .inl ⟨not_lt.2 hx.1, not_lt.2 hx.2, rfl⟩⟩

/-- **C166** The model spectrum of a candidate is on the axis of the spectrum. At a rest wavelength of the range of the fit it is the amplitude times the linear
interpolation of the template times the asked dust and IGM coefficients. Out of what the resampling covers it is null; the samples that are covered but beyond the range
have the template without extinction. -/
theorem C166_model (htx : tx.Pairwise (· < ·)) (hty : ty.length = tx.length) (hte : te.length = tx.length) (hpos : ∀ x ∈ tx, 0 < x)
    (hsx : sx.Pairwise (· < ·)) (hz : -1 < z) {x : Ext ℝ} {eb amp : ℝ} {mi : Int} {ax fl : List ℝ}
    (h : spectrumModel (Rebin.linear .no tx ty te) tx sx lr z thr x eb mi amp = .ok (ax, fl)) :
    ax = sx ∧ fl.length = sx.length ∧ ∃ cur : Range ℝ, (∀ w, cur.Mem w ↔ Common tx sx lr z w) ∧
      ∀ (i : Nat) (l : ℝ), sx[i]? = some l →
        (Common tx sx lr z (l / (1 + z)) → ∃ y d g, OnPolyline tx ty (l / (1 + z)) y ∧ DustAt x eb (l / (1 + z)) d ∧ IgmAt x z mi (l / (1 + z)) g ∧ fl[i]? = some (amp * y * d * g)) ∧
        (¬ Common tx sx lr z (l / (1 + z)) → Rebin.Covered tx cur (l / (1 + z)) → ∃ y, OnPolyline tx ty (l / (1 + z)) y ∧ fl[i]? = some (amp * y)) ∧
        (¬ Rebin.Covered tx cur (l / (1 + z)) → fl[i]? = some 0) := by
  have hz' : 0 < 1 + z := by linarith
  unfold spectrumModel at h
  obtain ⟨r, hr, h⟩ := Res.bind_eq_ok.1 h
  obtain ⟨t0, h0, h⟩ := Res.bind_eq_ok.1 h
  obtain ⟨t1, h1, h⟩ := Res.bind_eq_ok.1 h
  obtain ⟨t2, h2, h⟩ := Res.bind_eq_ok.1 h
  obtain ⟨a, ha, h⟩ := Res.bind_eq_ok.1 h
  cases h
  obtain ⟨r1, r2, r3, r4, r5, -⟩ := C166_rebin htx hty hte hpos hsx hz hr
  have hrl : r.rest.length = sx.length := by rw [r1, List.length_map]
  have hrs : r.rest.Pairwise (· < ·) := by
    rw [r1, List.pairwise_map]
    exact hsx.imp fun hab => div_lt_div_of_pos_right hab hz'
  obtain ⟨hd, hi, e, hI, hhi, hE⟩ := ext_inv hrs (by rw [r2, hrl]) h0 h1 h2
  have hA := Tpl.inv_step x.c (pairwise_le_of_lt hrs) hI (.amplitude amp) rfl
  have hA' : Tpl.Inv x.c r.rest hd hi (Tpl.amplitude t2 amp) ⟨(r.cells.map (·.flux)).map (· * amp), e⟩ := hA
  refine ⟨?_, by rw [hA'.flen, hrl], r.cur, r4, fun i l hl => ?_⟩
  · unfold SAxis.shift at ha
    rw [if_neg (not_lt.2 hz'.le)] at ha
    simp only [hz'.ne', if_false] at ha
    cases ha
    rw [hI.axis_eq, r1]
    show (sx.map (· / (1 + z))).map (· * (1 + z)) = sx
    rw [List.map_map]
    conv_rhs => rw [← List.map_id sx]
    refine List.map_congr_left fun y _ => ?_
    simp only [Function.comp, id]
    field_simp
  · have hi' : i < sx.length := (List.getElem?_eq_some_iff.1 hl).1
    have hw : r.rest[i]? = some (l / (1 + z)) := by rw [r1, List.getElem?_map, hl]; rfl
    obtain ⟨c, hc⟩ := Tpl.getElem_some (l := r.cells) (k := i) (by rw [r2]; exact hi')
    obtain ⟨q1, q2, q3⟩ := r5 i _ c hw hc
    obtain ⟨b, d, g, e1, e2, e3, e4⟩ := inv_flux hA' i _ hw
    have hb : b = c.flux * amp := by
      rw [List.getElem?_map, List.getElem?_map, hc] at e1
      simpa using e1.symm
    subst hb
    have hy : ∀ y, Rebin.Covered tx r.cur (l / (1 + z)) → y = c.flux → OnPolyline tx ty (l / (1 + z)) y := fun y hcv hy => hy ▸ (q2 hcv).2
    rcases hE with ⟨g1, g2, rfl⟩ | ⟨ks, ke, kd, hk, rfl, hkd⟩
    · have hd1 : d = 1 := e2
      have hg1 : g = 1 := e3
      subst hd1 hg1
      refine ⟨fun hm => ⟨c.flux, 1, 1, hy _ (q1 ((r4 _).2 hm)) rfl, ?_, ?_, by rw [e4]; congr 1; ring⟩, fun _ hcv => ⟨c.flux, hy _ hcv rfl, by rw [e4]; congr 1; ring⟩, fun hcv => ?_⟩
      · unfold DustAt; rw [if_neg g1]
      · unfold IgmAt; rw [if_neg (by omega)]
      · rw [e4, (q3 hcv).2]; simp
    · obtain ⟨-, -, k3⟩ := (C03_closed r.cur r.rest hrs).1 ks ke hk
      have k4 := k3 i (by rw [hrl]; exact hi')
      rw [(List.getElem?_eq_some_iff.1 hw).2] at k4
      unfold Tpl.IsDust at e2
      unfold Tpl.IsIgm at e3
      simp only [Nat.cast_le] at e2 e3
      refine ⟨fun hm => ⟨c.flux, d, g, hy _ (q1 ((r4 _).2 hm)) rfl, ?_, ?_, by rw [e4]; congr 1; ring⟩, fun hm hcv => ⟨c.flux, hy _ hcv rfl, ?_⟩, fun hcv => ?_⟩
      · have hin := k4.2 ((r4 _).2 hm)
        unfold DustAt
        by_cases hb : 0 < eb
        · rw [if_pos hb] at hkd ⊢
          refine ⟨kd, hkd, ?_⟩
          by_cases h0 : 0 ≤ kd
          · rw [if_pos h0]; rwa [if_pos ⟨hin.1, hin.2, h0⟩] at e2
          · rw [if_neg h0]; rwa [if_neg (fun hh => h0 hh.2.2)] at e2
        · rw [if_neg hb] at hkd ⊢
          subst hkd
          rwa [if_neg (by rintro ⟨-, -, hh⟩; omega)] at e2
      · have hin := k4.2 ((r4 _).2 hm)
        unfold IgmAt
        by_cases hmi : -1 < mi
        · rw [if_pos hmi] at e3
          by_cases hw' : l / (1 + z) ≤ x.c.igmMax
          · rw [if_pos ⟨by omega, hw'⟩]; rwa [if_pos ⟨hhi hmi, hin.1, hin.2, hw', by omega⟩] at e3
          · rw [if_neg (fun hh => hw' hh.2)]; rwa [if_neg (fun hh => hw' hh.2.2.2.1)] at e3
        · rw [if_neg hmi] at e3
          rw [if_neg (by omega)]
          rwa [if_neg (by rintro ⟨-, -, -, -, hh⟩; omega)] at e3
      · have hout : ¬ (ks ≤ i ∧ i ≤ ke) := fun hh => hm ((r4 _).1 (k4.1 hh))
        rw [if_neg (fun hh => hout ⟨hh.1, hh.2.1⟩)] at e2
        rw [if_neg (fun hh => hout ⟨hh.2.1, hh.2.2.1⟩)] at e3
        rw [e4, e2, e3]; congr 1; ring
      · rw [e4, (q3 hcv).2]; simp

end

/-! ## A case: `z = 1`, the template at 1, 2, 4 and the spectrum at 2, 4, 6 with the range from 2 to 5. The last sample, at 3 in the rest frame, is beyond the range but covered. -/

theorem ex_linear : Rebin.linear .no [1, 2, 4] [1, 1, 3] [1, 1, 1] ⟨1, 5 / 2⟩ [1, 2, 3] = .ok [⟨1, 1, .fin 1⟩, ⟨1, 1, .fin 1⟩, ⟨1, 2, .fin 1⟩] := by
  norm_num [Rebin.linear, Rebin.compute, Rebin.prefixLoop, Rebin.linearLoop, Rebin.whileLe, Rebin.linearCell, Res.at_, Res.atZ, Res.bind_ok, show Int.toNat 2 = 2 from rfl]

theorem ex_rebin : rebinTemplate (Rebin.linear .no [1, 2, 4] [1, 1, 3] [1, 1, 1]) [1, 2, 4] [2, 4, 6] ⟨2, 5⟩ 1 (1 / 2) =
    .ok ⟨[1, 2, 3], [⟨1, 1, .fin 1⟩, ⟨1, 1, .fin 1⟩, ⟨1, 2, .fin 1⟩], ⟨1, 5 / 2⟩, 1⟩ := by
  have e1 : SAxis.clampLambdaRange ([1, 2, 3] : List ℝ) (restRange ⟨2, 5⟩ 1) = .ok ⟨1, 5 / 2⟩ := by
    norm_num [SAxis.clampLambdaRange, restRange, SAxis.lambdaRange, Range.isEmpty]
  have e2 : SAxis.clampLambdaRange ([1, 2, 4] : List ℝ) (restRange ⟨2, 5⟩ 1) = .ok ⟨1, 5 / 2⟩ := by
    norm_num [SAxis.clampLambdaRange, restRange, SAxis.lambdaRange, Range.isEmpty]
  obtain ⟨a, ha, hs⟩ := shift_back [2, 4, 6] (z := 1) (by norm_num)
  have hs' : a.samples = [1, 2, 3] := by rw [hs]; norm_num
  have e3 : (Range.intersect (⟨1, 5 / 2⟩ : Range ℝ) ⟨1, 5 / 2⟩ ⟨0, 0⟩).2 = ⟨1, 5 / 2⟩ := by
    unfold Range.intersect Range.hasIntersection; norm_num
  have e4 : SAxis.overlapFraction ([1, 2, 3] : List ℝ) (restRange ⟨2, 5⟩ 1) [1, 1, 1] = .ok 1 := by
    norm_num [SAxis.overlapFraction, SAxis.overlapRates, restRange, Res.bind_ok]
  unfold rebinTemplate
  rw [if_neg (by norm_num), ha, Res.bind_ok, hs', e1, Res.bind_ok, e2, Res.bind_ok, e3, ex_linear, Res.bind_ok]
  simp only [List.map_cons, List.map_nil]
  rw [e4, Res.bind_ok, if_neg (by norm_num)]

/-- **C166** The sample beyond the range of wavelengths gets the amplitude times the template without extinction whatever the dust asked for. -/
theorem C166_beyond_range (x : Ext ℝ) (eb amp : ℝ) (mi : Int) {ax fl : List ℝ}
    (h : spectrumModel (Rebin.linear .no [1, 2, 4] [1, 1, 3] [1, 1, 1]) [1, 2, 4] [2, 4, 6] ⟨2, 5⟩ 1 (1 / 2) x eb mi amp = .ok (ax, fl)) :
    ¬ Range.Mem (⟨2, 5⟩ : Range ℝ) 6 ∧ ax[2]? = some 6 ∧ fl[2]? = some (amp * 2) := by
  have hn : ¬ Range.Mem (⟨2, 5⟩ : Range ℝ) 6 := by unfold Range.Mem; norm_num
  obtain ⟨h1, h2, cur, h3, h4⟩ := C166_model (tx := [1, 2, 4]) (ty := [1, 1, 3]) (te := [1, 1, 1]) (sx := [2, 4, 6]) (lr := ⟨2, 5⟩) (z := 1) (thr := 1 / 2) (by norm_num) (by simp) (by simp) (by norm_num) (by norm_num) (by norm_num) h
  obtain ⟨-, h5, -⟩ := h4 2 6 (by simp)
  have e : (6 : ℝ) / (1 + 1) = 3 := by norm_num
  rw [e] at h5
  have hm1 : Common [1, 2, 4] [2, 4, 6] ⟨2, 5⟩ 1 1 := by
    unfold Common Range.Mem TplComb.Covered; norm_num
  have hm2 : Common [1, 2, 4] [2, 4, 6] ⟨2, 5⟩ 1 2 := by
    unfold Common Range.Mem TplComb.Covered; norm_num
  have c1 := (h3 1).2 hm1
  have c2 := (h3 2).2 hm2
  obtain ⟨y, ⟨i, x0, x1, y0, y1, p1, p2, p3, p4, p5, p6, p7⟩, hy⟩ := h5 (by unfold Common Range.Mem; norm_num) ⟨le_trans c1.1 (by norm_num), 1, 2, 4, by simp, by simp, c2.2, by norm_num⟩
  refine ⟨hn, by rw [h1]; simp, ?_⟩
  rw [hy]
  have : y = 2 := by
    match i, p1, p2, p3, p4 with
    | 0, p1, p2, p3, p4 => simp at p1 p2 p3 p4; subst p2; norm_num at p6
    | 1, p1, p2, p3, p4 => simp at p1 p2 p3 p4; subst p1 p2 p3 p4; linarith
    | 2, p1, p2, p3, p4 => simp at p2
  rw [this]

/-- Curves with a dust of one half, for the case. -/
noncomputable def exExt : Ext ℝ := ⟨⟨fun _ _ => .ok (1 / 2), fun _ => none, fun _ _ _ => .ok 1, 0⟩, fun _ => .ok 0, true, false, false, false⟩

/-- The hypotheses are met: the case with dust is computed. -/
theorem ex_model : ∃ ax fl, spectrumModel (Rebin.linear .no [1, 2, 4] [1, 1, 3] [1, 1, 1]) [1, 2, 4] [2, 4, 6] ⟨2, 5⟩ 1 (1 / 2) exExt 1 (-1) 3 = .ok (ax, fl) := by
  unfold spectrumModel
  rw [ex_rebin, Res.bind_ok]
  have e : Range.closedIdx (⟨1, 5 / 2⟩ : Range ℝ) [1, 2, 3] = .ok (0, 1) := by
    obtain ⟨h1, h2, -⟩ := C03_closed (⟨1, 5 / 2⟩ : Range ℝ) [1, 2, 3] (by norm_num)
    obtain ⟨⟨i, j⟩, hij⟩ := h2.2 ⟨1, by simp, by unfold Range.Mem; norm_num⟩
    obtain ⟨a, b, c⟩ := h1 i j hij
    have c0 := (c 0 (by simp)).2 (by unfold Range.Mem; norm_num)
    have c1 := (c 1 (by simp)).2 (by unfold Range.Mem; norm_num)
    have c2 := (c 2 (by simp)).not.2 (by unfold Range.Mem; norm_num)
    simp at b
    have : i = 0 ∧ j = 1 := by omega
    rw [hij, this.1, this.2]
  norm_num [initExt, exExt, e, Res.bind_ok, did, Tpl.init, Tpl.make, dustExt, Tpl.applyDust, Tpl.enabled, Tpl.applyLoop, Res.tab, Res.at_, igmExt, SAxis.shift]
  rw [if_neg (by simp)]
  exact ⟨_, _, rfl⟩

end TplModel
end Amazed
