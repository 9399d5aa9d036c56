import Verif.Props.TplLogRange
import Verif.Props.FftProps
import Mathlib.Tactic.IntervalCases

set_option linter.unusedSectionVars false
set_option linter.unusedVariables false

/-! # Template fitting on log-sampled grids: the fit of a range returns (C128) -/

namespace Amazed
namespace TplLog

open TplFit (Prior setTbl Sample sumsOf weight IsSqrt get2 val)

variable {K : Type} [Field K] [LinearOrder K] [IsStrictOrderedRing K]

/-- The extinctions that are asked for exist: the template has the extinction objects, the dust curves have the indices of the list and
the IGM curves those of theirs at redshift `z`. -/
structure Ready (x : Ctx K) (hd hi : Bool) (z : K) : Prop where
  dust : x.ism = true → hd = true
  igm : x.igm = true → hi = true
  dustCurve : x.ism = true → ∀ k ∈ x.ebmv, 0 ≤ k → ∀ w, ∃ v, x.c.dust k w = .ok v
  igmCurve : hi = true → ∃ zi, x.c.zIndex z = some zi ∧ ∀ i ∈ x.meiksin, 0 ≤ i → ∀ w, ∃ v, x.c.igm zi i w = .ok v

theorem TplOk.dust_total {x : Ctx K} {g : Rng K} {axis base : List K} {hd hi : Bool} {z : K} {kd i : Int} {t : Tpl.T K}
    (h : TplOk x g axis base hd hi z kd i t) (hx : x.ism = true) (hhd : hd = true) {k : Int} (hc : 0 ≤ k → ∀ w, ∃ v, x.c.dust k w = .ok v) :
    ∃ b, (Tpl.applyDust x.c t k).2 = .ok b := by
  have hon := h.inv.on g.kstart g.kend z kd i (by simp [hx])
  obtain ⟨h1, h2, h3, h4, h5, h6, h7, h8, h9, h10, h11, h12, h13, h14⟩ := hon
  have hdust : t.hasDust = true := h.inv.hd_eq.trans hhd
  have hb : t.noExt.length = t.axis.length := by rw [h1, h.inv.axis_eq]; exact h.inv.blen
  obtain ⟨r, hr⟩ := TplFit.applyLoop_total (axis := t.axis) (noExt := t.noExt) (flux := t.flux) (coeff := t.dustC)
    (other := t.igmC) (f := fun w => if k > -1 then x.c.dust k w else .ok 1) (a := t.kstart) (b := t.kend) hb
    (by rw [h.inv.axis_eq]; exact h.inv.flen) (by rw [h.inv.axis_eq]; exact h10) (by rw [h.inv.axis_eq]; exact h11)
    (by
      intro j w _ _ _
      split
      · exact hc (by omega) w
      · exact ⟨1, rfl⟩)
  unfold Tpl.applyDust
  rw [if_neg (by simp [Tpl.enabled, h2, hdust])]
  by_cases hk : t.kDust = k
  · rw [if_pos hk]; exact ⟨_, rfl⟩
  · rw [if_neg hk]
    simp only [hr]
    exact ⟨_, rfl⟩

theorem TplOk.igm_total {x : Ctx K} {g : Rng K} {axis base : List K} {hd hi : Bool} {z : K} {kd i : Int} {t : Tpl.T K}
    (h : TplOk x g axis base hd hi z kd i t) (hx : x.igm = true) (hhi : hi = true) {k : Int}
    (hc : 0 ≤ k → ∃ zi, x.c.zIndex z = some zi ∧ ∀ w, ∃ v, x.c.igm zi k w = .ok v) :
    ∃ b, (Tpl.applyIgm x.c t k).2 = .ok b := by
  have hon := h.inv.on g.kstart g.kend z kd i (by simp [hx])
  obtain ⟨h1, h2, h3, h4, h5, h6, h7, h8, h9, h10, h11, h12, h13, h14⟩ := hon
  have hig : t.hasIgm = true := h.inv.hi_eq.trans hhi
  have hb : t.noExt.length = t.axis.length := by rw [h1, h.inv.axis_eq]; exact h.inv.blen
  unfold Tpl.applyIgm
  rw [if_neg (by simp [Tpl.enabled, h2, hig])]
  by_cases hk : t.igmIdx = k
  · rw [if_pos hk]; exact ⟨_, rfl⟩
  · rw [if_neg hk]
    simp only
    cases he : t.igmEnd with
    | none => exact ⟨_, rfl⟩
    | some e =>
      obtain ⟨r, hr⟩ := TplFit.applyLoop_total (axis := t.axis) (noExt := t.noExt) (flux := t.flux) (coeff := t.igmC)
        (other := t.dustC) (f := Tpl.igmCoeff x.c t.zIdx k) (a := t.kstart) (b := e) hb
        (by rw [h.inv.axis_eq]; exact h.inv.flen) (by rw [h.inv.axis_eq]; exact h11) (by rw [h.inv.axis_eq]; exact h10)
        (by
          intro j w _ _ _
          unfold Tpl.igmCoeff
          split
          · obtain ⟨zi, z1, z2⟩ := hc (by omega)
            rw [(h12 hhi).2.1, z1]
            exact z2 w
          · exact ⟨1, rfl⟩)
      simp only [hr]
      exact ⟨_, rfl⟩

theorem getD_mem {α : Type} {l : List α} {k : Nat} (h : k < l.length) (d : α) : l.getD k d ∈ l := by
  rw [List.getD_eq_getElem _ _ h]
  exact List.getElem_mem h

section
variable {σ : Type} {est : Nat → σ → List K → List K → ℤ → Res (List K × σ)} {I : Nat → List K → List K → σ → Prop}

theorem igmStep_total (hest : EstInv est I) {sq : K → K} {x : Ctx K} {g : Rng K} {err axis base : List K} {hd hi : Bool} {z : K} {kM : Nat}
    {i : Int} {st : St K σ} (hS : Setup x g err axis) (hov : g.over ≠ none → kM = 0) (hR : Ready x hd hi z) (hM : kM < x.meiksin.length)
    (hi0 : g.igm = false → i = -1) (h : StInv I sq x g err axis base hd hi z i kM 0 st) : ∃ st', igmStep sq est x g kM st = .ok st' := by
  obtain ⟨kd, ht⟩ := h.tpl
  unfold igmStep
  have hmi : x.meiksin[kM]? = some (x.meiksin.getD kM 0) := by
    rw [List.getD_eq_getElem _ _ hM]
    exact List.getElem?_eq_getElem hM
  rw [Res.at_eq_ok.2 hmi, Res.bind_ok]
  have htt : ∃ t, (if g.igm then (Tpl.applyIgm x.c st.t (x.meiksin.getD kM 0)).2 >>= fun _ =>
      .ok (Tpl.applyIgm x.c st.t (x.meiksin.getD kM 0)).1 else .ok st.t) = Res.ok t ∧
      TplOk x g axis base hd hi z kd (if g.igm then x.meiksin.getD kM 0 else -1) t := by
    cases hg : g.igm with
    | true =>
      obtain ⟨b, hb⟩ := ht.igm_total (ht.igmOn hg) (hR.igm (ht.igmOn hg)) (k := x.meiksin.getD kM 0) (by
        intro h0
        obtain ⟨zi, z1, z2⟩ := hR.igmCurve (hR.igm (ht.igmOn hg))
        exact ⟨zi, z1, z2 _ (getD_mem hM 0) h0⟩)
      refine ⟨_, by simp only [if_true]; rw [hb, Res.bind_ok], ?_⟩
      simpa using ht.igm hS.sorted hg hb
    | false =>
      refine ⟨st.t, by simp, ?_⟩
      have := hi0 hg
      rw [this] at ht
      simpa using ht
  obtain ⟨t, et, ht'⟩ := htt
  rw [et, Res.bind_ok]
  have hst : StInv I sq x g err axis base hd hi z (if g.igm then x.meiksin.getD kM 0 else -1) kM 0 { st with t := t } :=
    ⟨⟨kd, ht'⟩, h.fft, h.len, h.rows⟩
  have H := Res.foldN_inv (f := ismStep sq est x g kM (x.meiksin.getD kM 0))
    (fun kE s => StInv I sq x g err axis base hd hi z (if g.igm then x.meiksin.getD kM 0 else -1) kM kE s) x.ebmv.length 0
    { st with t := t } hst (by
      intro kE s _ hE hP
      refine ismStep_ok hest hS hP (by omega) hM hov ?_
      intro hx
      obtain ⟨kd', hP'⟩ := hP.tpl
      exact hP'.dust_total hx (hR.dust hx) (hR.dustCurve hx _ (getD_mem (by omega) 0)))
  obtain ⟨s', e, -⟩ := H
  exact ⟨s', e⟩

theorem loops_total (hest : EstInv est I) {sq : K → K} {x : Ctx K} {g : Rng K} {err axis base : List K} {hd hi : Bool} {z : K} {s0 : σ}
    (hI : I g.nPad g.x0 g.x1 s0) {t : Tpl.T K} {ext : Option (Int × Int × K × Int × Int)} (hS : Setup x g err axis) (hR : Ready x hd hi z)
    (ht : Tpl.Inv x.c axis hd hi t ⟨base, ext⟩) (hext : (x.igm || x.ism) = false → ext = none) (hg : g.igm = true → x.igm = true)
    (hnm : x.meiksin ≠ []) (hse : g.kstart ≤ g.kend)
    {n : Nat} (hn : n = g.kend + 1 - g.kstart - x.spcAxis.length + 1) : ∃ r, fitLoops sq est s0 x g z n t = .ok r := by
  have hke := hS.kend
  have hinit : ∃ t1, (if x.igm || x.ism then (Tpl.init x.c t g.kstart g.kend z).2 >>= fun _ => .ok (Tpl.init x.c t g.kstart g.kend z).1
      else .ok t) = Res.ok t1 ∧ TplOk x g axis base hd hi z (-1) (-1) t1 := by
    cases hx : (x.igm || x.ism) with
    | true =>
      have hok : (Tpl.init x.c t g.kstart g.kend z).2 = .ok () := by
        unfold Tpl.init
        rw [ht.axis_eq]
        rw [if_neg (by
          rw [ht.hd_eq, ht.hi_eq]
          rintro ⟨q1, q2⟩
          rcases Bool.or_eq_true _ _ ▸ hx with q | q
          · rw [hR.igm q] at q1; cases q1
          · rw [hR.dust q] at q2; cases q2), if_neg (by omega), if_neg (by omega)]
        simp only []
        rw [if_neg (by omega)]
        rw [if_neg]
        rintro ⟨q1, q2, -⟩
        rw [if_pos q1] at q2
        have q2 : x.c.zIndex z = none := q2
        rw [ht.hi_eq] at q1
        obtain ⟨zi, z1, -⟩ := hR.igmCurve q1
        rw [z1] at q2
        cases q2
      refine ⟨_, by simp only [if_true]; rw [hok, Res.bind_ok], ?_⟩
      have := Tpl.inv_step x.c hS.sorted ht (.init g.kstart g.kend z) hok
      refine ⟨?_, fun _ => rfl, fun _ => rfl, fun _ h => absurd h (by norm_num), hg⟩
      rw [hx, if_pos rfl]
      exact this
    | false =>
      refine ⟨t, by simp, ?_⟩
      refine ⟨?_, fun _ => rfl, fun _ => rfl, fun _ h => absurd h (by norm_num), hg⟩
      rw [hx]
      rw [hext hx] at ht
      simpa using ht
  obtain ⟨t1, et, ht1⟩ := hinit
  unfold fitLoops
  rw [et, Res.bind_ok]
  have hst : StInv I sq x g err axis base hd hi z (-1) 0 0 ⟨t1, s0, List.replicate n (emptyRow x.ebmv.length x.meiksin.length)⟩ := by
    refine ⟨⟨-1, ht1⟩, hI, by rw [List.length_replicate, hn], ?_⟩
    intro k r hr
    have := List.eq_of_mem_replicate (List.mem_of_getElem? hr)
    rw [this]
    exact rowInv_start
  have hM := List.length_pos_of_ne_nil hnm
  have H := Res.foldN_inv (f := igmStep sq est x g)
    (fun kM s => ∃ i, (g.igm = false → i = -1) ∧ StInv I sq x g err axis base hd hi z i kM 0 s) (nLoops x g) 0 _ ⟨-1, fun _ => rfl, hst⟩ (by
      rintro kM s _ hlt ⟨i, hi0, hP⟩
      have hov : g.over ≠ none → kM = 0 := by
        intro ho
        unfold nLoops at hlt
        cases e : g.over with
        | none => exact absurd e ho
        | some v => rw [e] at hlt; simp at hlt; exact hlt
      have hkM : kM < x.meiksin.length := by
        unfold nLoops at hlt
        cases e : g.over with
        | none => rw [e] at hlt; simpa using hlt
        | some v => rw [e] at hlt; simp at hlt; omega
      obtain ⟨s', hs'⟩ := igmStep_total hest hS hov hR hkM hi0 hP
      exact ⟨s', hs', igmStep_inv hest hS hov hi0 hP hs'⟩)
  obtain ⟨s', e, -⟩ := H
  rw [e, Res.bind_ok]
  exact ⟨_, rfl⟩
end

/-- **C128**: the fit of a range of redshifts returns when the template has one sample per sample of the spectrum plus one per redshift
after the first, when each redshift is the quotient of the first wavelength of the spectrum and that of its sample of the template within
5e-7, when no error is null and when the extinctions that are asked for exist. -/
theorem C128_total {σ : Type} {est : Nat → σ → List K → List K → ℤ → Res (List K × σ)} {s0 : σ} (hest : EstOk est s0) (sq : K → K)
    {x : Ctx K} {err axis base inv : List K} {dtd : K} {hd hi : Bool} {t : Tpl.T K}
    {ext : Option (Int × Int × K × Int × Int)} {rg : Int × Int} {zs : List K}
    (hfl : x.flux.length = x.spcAxis.length) (hel : err.length = x.spcAxis.length) (hen : ∀ e ∈ err, e ≠ 0)
    (hinv : inv = err.map fun e => 1 / (e * e))
    (hdtd : dtd = ∑ j ∈ Finset.range x.spcAxis.length, x.flux.getD j 0 * x.flux.getD j 0 * (1 / (err.getD j 0 * err.getD j 0)))
    (hs : axis.Pairwise (· ≤ ·)) (ht : Tpl.Inv x.c axis hd hi t ⟨base, ext⟩) (hext : (x.igm || x.ism) = false → ext = none)
    (hnm : x.meiksin ≠ []) (hspc : x.spcAxis ≠ []) (hz : zs ≠ []) (hR : Ready x hd hi (zs.getD 0 0))
    (hsize : rg.2 - rg.1 + 1 = x.spcAxis.length + zs.length - 1) (h0 : 0 ≤ rg.1) (h1 : rg.2 < axis.length)
    (hgrid : ∀ (r : Nat) (z tl : K), zs[r]? = some z → axis[rg.1.toNat + (zs.length - 1 - r)]? = some tl →
      0 < tl ∧ 0 < x.spcAxis.getD 0 0 ∧ |(1 + z) - x.spcAxis.getD 0 0 / tl| / (x.spcAxis.getD 0 0 / tl) ≤ 5 / 10000000) :
    ∃ rows t', fitRangez sq est s0 x inv dtd rg zs t = .ok (rows, t') := by
  obtain ⟨I, hI, hest⟩ := hest
  have hspos := List.length_pos_of_ne_nil hspc
  have hzpos := List.length_pos_of_ne_nil hz
  have hil : ∀ j : Nat, j < x.spcAxis.length → inv.getD j 0 = 1 / (err.getD j 0 * err.getD j 0) := by
    intro j hj
    rw [hinv, List.getD_eq_getElem _ _ (by rw [List.length_map, hel]; exact hj), List.getElem_map,
      List.getD_eq_getElem _ _ (by rw [hel]; exact hj)]
  have hinl : inv.length = x.spcAxis.length := by rw [hinv, List.length_map, hel]
  unfold fitRangez
  rw [if_neg (by omega)]
  simp only []
  rw [Res.tab_ok (h := fun (j : Nat) => x.flux.getD j 0 * (1 / (err.getD j 0 * err.getD j 0))) x.spcAxis.length (by
    intro j hj
    rw [Res.at_of_lt (by omega), Res.bind_ok, Res.at_of_lt (by omega), Res.bind_ok, ← hil j hj, List.getD_eq_getElem _ _ (by omega),
      List.getD_eq_getElem _ _ (by omega)]), Res.bind_ok]
  rw [Res.at_of_lt hzpos, Res.bind_ok, Res.at_of_lt hspos, Res.bind_ok, ht.axis_eq]
  rw [Res.at_of_lt (l := axis) (i := rg.1.toNat) (by omega), Res.bind_ok, Res.at_of_lt (l := axis) (i := rg.2.toNat) (by omega), Res.bind_ok]
  rw [if_neg (by omega)]
  have hnn : (rg.2 - rg.1 + 1 - (x.spcAxis.length : Int) + 1).toNat = zs.length := by omega
  rw [hnn]
  have hl0 : x.spcAxis.getD 0 0 = x.spcAxis[0] := List.getD_eq_getElem _ _ hspos
  have hze : ∃ e, zErrors x.spcAxis[0] axis zs.reverse rg.1.toNat zs.length = .ok e ∧ e ≤ 5 / 10000000 := by
    unfold zErrors
    have H := Res.foldN_inv (f := fun t m => Res.at_ axis (t + rg.1.toNat) >>= fun tl => Res.at_ zs.reverse t >>= fun z =>
      zError x.spcAxis[0] tl z >>= fun e => .ok (if m < e then e else m)) (fun _ m => m ≤ (5 / 10000000 : K)) zs.length 0 0
      (by positivity) (by
        intro k m _ hk hm
        have hk1 : k + rg.1.toNat < axis.length := by omega
        have hk2 : k < zs.reverse.length := by rw [List.length_reverse]; omega
        rw [Res.at_of_lt hk1, Res.bind_ok, Res.at_of_lt hk2, Res.bind_ok]
        have hzz : zs[zs.length - 1 - k]? = some zs.reverse[k] := by
          rw [List.getElem_reverse]
          exact List.getElem?_eq_getElem _
        have htl : axis[rg.1.toNat + (zs.length - 1 - (zs.length - 1 - k))]? = some axis[k + rg.1.toNat] := by
          rw [show rg.1.toNat + (zs.length - 1 - (zs.length - 1 - k)) = k + rg.1.toNat by omega]
          exact List.getElem?_eq_getElem hk1
        obtain ⟨g1, g2, g3⟩ := hgrid _ _ _ hzz htl
        rw [hl0] at g2 g3
        set tl : K := axis[k + rg.1.toNat]
        set z : K := zs.reverse[k]
        have e1 : (1 : K) + (x.spcAxis[0] - tl) / tl = x.spcAxis[0] / tl := by
          field_simp
          ring
        have e2 : z - (x.spcAxis[0] - tl) / tl = ((1 : K) + z) - x.spcAxis[0] / tl := by rw [← e1]; ring
        have e3 : (0 : K) < x.spcAxis[0] / tl := by positivity
        unfold zError
        rw [if_neg (by rw [e1]; push Not; exact ⟨g1.ne', e3.ne'⟩), Res.bind_ok]
        refine ⟨_, rfl, ?_⟩
        split
        · rw [e1, e2]; exact g3
        · exact hm)
    obtain ⟨e, h1, h2⟩ := H
    exact ⟨e, h1, h2⟩
  obtain ⟨e, ez, hle⟩ := hze
  rw [ez, Res.bind_ok, if_neg (not_lt.2 hle), if_neg (by simp)]
  set g : Rng K := ⟨((rg.2 - rg.1 + 1).toNat + 1) / 2 * 2, rg.1.toNat, rg.2.toNat,
    (List.range x.spcAxis.length).map fun (j : Nat) => x.flux.getD j 0 * (1 / (err.getD j 0 * err.getD j 0)), inv, dtd,
    x.igm && (override axis[rg.1.toNat] x.meiksin.length).isNone, override axis[rg.1.toNat] x.meiksin.length⟩ with hg
  have hS : Setup x g err axis := by
    refine ⟨hfl, hel, hspos, hen, hs, rfl, ?_, hdtd, ?_, ?_, ?_, ?_⟩
    · show inv = _
      apply List.ext_getElem
      · rw [hinv]; simp [hel]
      · intro j hj1 hj2
        rw [List.length_map, List.length_range] at hj2
        rw [List.getElem_map, List.getElem_range, ← hil j hj2, List.getD_eq_getElem _ _ hj1]
    · show rg.2.toNat < axis.length
      omega
    · show rg.1.toNat + x.spcAxis.length ≤ rg.2.toNat + 1
      omega
    · show rg.2.toNat + 1 - rg.1.toNat ≤ ((rg.2 - rg.1 + 1).toNat + 1) / 2 * 2
      omega
    · show override axis[rg.1.toNat] x.meiksin.length = none ∨ (override axis[rg.1.toNat] x.meiksin.length = some x.meiksin.length ∧
        (x.igm && (override axis[rg.1.toNat] x.meiksin.length).isNone) = false)
      unfold override
      split
      · right; simp
      · left; rfl
  have hz0 : zs.getD 0 0 = zs[0] := List.getD_eq_getElem _ _ hzpos
  rw [hz0] at hR
  obtain ⟨r, hr⟩ := loops_total (I := I) hest (sq := sq) (hI _ _ _) hS hR ht hext
    (by
      intro hc
      have : (x.igm && (override axis[rg.1.toNat] x.meiksin.length).isNone) = true := hc
      rw [Bool.and_eq_true] at this
      exact this.1) hnm (show rg.1.toNat ≤ rg.2.toNat by omega) (n := zs.length)
      (by
        show zs.length = rg.2.toNat + 1 - rg.1.toNat - x.spcAxis.length + 1
        omega)
  exact ⟨r.1, r.2, hr⟩

/-- The correlation by FFT (C127) is the correlation of C128. -/
theorem C128_fft : EstOk (K := ℝ) Fft.estimateXtY Fft.Cache.init := by
  refine ⟨fun n x0 x1 c => Fft.CacheOf n x0 x1 c, fun n x0 x1 => Fft.C127_init n x0 x1, ?_⟩
  intro n x0 x1 s x y flag hc hx hne hy hxy
  obtain ⟨l, c', e1, e2, e3, e4⟩ := Fft.C127_correlation n s x0 x1 x y flag hc
    (by
      rcases hx with ⟨q, hx⟩ | ⟨q, hx⟩ <;> subst q
      · exact ⟨fun _ => hx, fun h => absurd h (by norm_num)⟩
      · exact ⟨fun h => absurd h (by norm_num), fun _ => hx⟩) hne hy hxy
  refine ⟨c', ?_, e2⟩
  rw [e1]
  congr 2
  apply List.ext_getElem
  · simp [e3]
  · intro k h1 h2
    rw [List.getElem_map, List.getElem_range]
    exact e4 k _ (List.getElem?_eq_getElem h1)

/-! ## A case -/

/-- The sums computed directly. -/
def direct (_ : Nat) (_ : Unit) (x y : List K) (_ : ℤ) : Res (List K × Unit) :=
  if y.length < x.length then .throw .INTERNAL_ERROR
  else .ok ((List.range (y.length - x.length + 1)).map fun (k : Nat) => ((List.range x.length).map fun (i : Nat) => x.getD i 0 * y.getD (k + i) 0).sum, ())

/-- Direct sums satisfy what C128 asks of the correlation. -/
theorem direct_ok : EstOk (K := K) direct () := by
  refine ⟨fun _ _ _ _ => True, fun _ _ _ => trivial, ?_⟩
  intro n x0 x1 s x y flag _ _ _ _ hxy
  refine ⟨(), ?_, trivial⟩
  unfold direct
  rw [if_neg (by omega)]
  rfl

/-- A spectrum of 3 samples, two dust curves (none and a halving above 3000) and an IGM curve that halves the flux up to 1216. -/
def exCtx : Ctx ℚ := ⟨[4800, 9600, 19200], [2, 4, 5], ⟨fun _ w => .ok (if 3000 < w then 1 / 2 else 1), fun _ => some 0,
  fun _ _ _ => .ok (1 / 2), 1216⟩, fun k => k + 1, true, true, -1000, [0], [-1, 0]⟩

def exTpl : Tpl.T ℚ := Tpl.make [600, 1200, 2400, 4800, 9600] [2, 4, 4, 10, 6] true true

def exErr : List ℚ := [1, 1, 1]

theorem exTpl_inv : Tpl.Inv exCtx.c [600, 1200, 2400, 4800, 9600] true true exTpl ⟨[2, 4, 4, 10, 6], none⟩ :=
  ⟨rfl, rfl, rfl, rfl, rfl, fun _ => ⟨rfl, rfl⟩, fun _ _ _ _ _ h => by cases h⟩

/-- The hypotheses of `C128_total` (and with it those of `C128_fit`) are met by a spectrum and three redshifts. -/
example : ∃ rows t', fitRangez (fun v => v) direct () exCtx [1, 1, 1] 45 (0, 4) [1, 3, 7] exTpl = .ok (rows, t') := by
  refine C128_total (K := ℚ) direct_ok (fun v => v) (err := exErr) (by decide) (by decide) (by decide) (by decide +kernel) (by decide +kernel)
    (by decide +kernel) exTpl_inv (by decide) (by decide) (by decide) (by decide) ?_ (by decide) (by decide) (by decide) ?_
  · exact ⟨fun _ => rfl, fun _ => rfl, fun _ k _ _ w => ⟨_, rfl⟩, fun _ => ⟨0, rfl, fun i _ _ w => ⟨_, rfl⟩⟩⟩
  · intro r z tl h1 h2
    have : r < 3 := by
      have := (List.getElem?_eq_some_iff.1 h1).1
      simpa using this
    interval_cases r <;> simp at h1 h2 <;> subst h1 h2 <;> norm_num [exCtx]

/-- The fit of this case: at redshift 3 the model is half of 4 then 4 and 10, and dust is chosen (the last flux is then 5). -/
example : (fitRangez (fun v => v) direct () exCtx [1, 1, 1] 45 (0, 4) [1, 3, 7] exTpl >>= fun r =>
    .ok (r.1.map fun q => q.best.map fun b => (b.chi2, b.amp, b.ebmv, b.igm))) =
    .ok [some (189 / 38, 39 / 76, 0, 0), some (0, 1, 1, 0), some (15 / 7, 10 / 7, 0, 0)] := by decide +kernel

end TplLog
end Amazed
