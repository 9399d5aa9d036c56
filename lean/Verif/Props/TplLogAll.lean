import Verif.Props.TplLogTotal
import Verif.Props.TplLogZRanges

set_option linter.unusedSectionVars false
set_option linter.unusedVariables false

/-! # Template fitting on log-sampled grids: all the redshifts (C131) -/

namespace Amazed
namespace TplLog

open TplFit (Prior setTbl Sample sumsOf weight IsSqrt get2 val)

variable {K : Type} [Field K] [LinearOrder K] [IsStrictOrderedRing K]

theorem copyRows_spec {sq : K → K} {thr dtd : K} {ei : K → Res Int} {priors : List (List (Prior K))} :
    ∀ (rs : List (Row K)) (i : Nat) (out out' : List (Option (Row K))), copyRows sq thr dtd ei priors i rs out = .ok out' →
      out'.length = out.length ∧ (rs ≠ [] → i + rs.length ≤ out.length) ∧ (∀ k : Nat, k < i ∨ i + rs.length ≤ k → out'[k]? = out[k]?) ∧
      ∀ (k : Nat) (r : Row K), rs[k]? = some r → ∃ r', copyRow sq thr dtd ei priors (i + k) r = .ok r' ∧ out'[i + k]? = some (some r')
  | [], i, out, out', h => by
    unfold copyRows at h
    cases h
    exact ⟨rfl, fun h => absurd rfl h, fun _ _ => rfl, fun k r h => by simp at h⟩
  | r :: rs, i, out, out', h => by
    unfold copyRows at h
    by_cases hl : out.length ≤ i
    · rw [if_pos hl] at h; cases h
    rw [if_neg hl] at h
    obtain ⟨r', h1, h⟩ := Res.bind_eq_ok.1 h
    obtain ⟨e1, e2, e3, e4⟩ := copyRows_spec rs (i + 1) _ _ h
    rw [List.length_set] at e1 e2
    refine ⟨e1, fun _ => ?_, fun k hk => ?_, fun k q hq => ?_⟩
    · rw [List.length_cons]
      cases rs with
      | nil => simp; omega
      | cons a b => have := e2 (by simp); omega
    · rw [List.length_cons] at hk
      rw [e3 k (by omega), List.getElem?_set_ne (by omega)]
    · cases k with
      | zero =>
        simp only [List.getElem?_cons_zero, Option.some.injEq] at hq
        subst hq
        refine ⟨r', h1, ?_⟩
        rw [Nat.add_zero, e3 i (by omega), List.getElem?_set_self (by omega)]
      | succ k =>
        rw [List.getElem?_cons_succ] at hq
        obtain ⟨q', d1, d2⟩ := e4 k q hq
        rw [show i + (k + 1) = i + 1 + k by omega]
        exact ⟨q', d1, d2⟩

/-- The sums over the spectrum. -/
theorem spcSums_spec {flux err inv : List K} {dtd : K} (h : spcSums flux err = .ok (inv, dtd)) :
    (∀ e ∈ err, e ≠ 0) ∧ inv = (err.map fun e => 1 / (e * e)) ∧
    dtd = ∑ j ∈ Finset.range err.length, flux.getD j 0 * flux.getD j 0 * (1 / (err.getD j 0 * err.getD j 0)) := by
  unfold spcSums at h
  obtain ⟨i, h1, h⟩ := Res.bind_eq_ok.1 h
  obtain ⟨d, h2, h⟩ := Res.bind_eq_ok.1 h
  cases h
  have hl := Res.tab_length _ h1
  have hg : ∀ (j : Nat) (hj : j < err.length), err[j] ≠ 0 ∧ inv[j]? = some (1 / (err[j] * err[j])) := by
    intro j hj
    have := Res.tab_get _ h1 j hj
    obtain ⟨v, q, hv⟩ := this
    rw [Res.at_of_lt hj, Res.bind_ok] at hv
    by_cases c : err[j] * err[j] = 0
    · rw [if_pos c] at hv; cases hv
    · rw [if_neg c] at hv
      cases hv
      exact ⟨fun e => c (by rw [e]; ring), q⟩
  refine ⟨?_, ?_, ?_⟩
  · intro e he
    obtain ⟨j, hj, rfl⟩ := List.getElem_of_mem he
    exact (hg j hj).1
  · apply List.ext_getElem
    · rw [hl, List.length_map]
    · intro j h3 h4
      rw [List.length_map] at h4
      have := (hg j h4).2
      rw [List.getElem?_eq_getElem h3] at this
      rw [List.getElem_map]
      exact Option.some.inj this
  · have H := TplFit.Res.foldN_inv_ok (f := fun j s => Res.at_ flux j >>= fun f => Res.at_ inv j >>= fun i => .ok (s + f * f * i))
      (fun k s => s = ∑ j ∈ Finset.range k, flux.getD j 0 * flux.getD j 0 * (1 / (err.getD j 0 * err.getD j 0))) err.length 0 0 dtd (by simp) (by
        intro k s s' _ hk hs he
        obtain ⟨f, f1, he⟩ := Res.bind_eq_ok.1 he
        obtain ⟨i, i1, he⟩ := Res.bind_eq_ok.1 he
        cases he
        have hk' : k < err.length := by omega
        have f1 := Res.at_eq_ok.1 f1
        have i1 := Res.at_eq_ok.1 i1
        rw [(hg k hk').2] at i1
        cases i1
        rw [Finset.sum_range_succ, hs, List.getD_eq_getElem?_getD, f1, List.getD_eq_getElem _ _ hk']
        rfl) h2
    rw [Nat.zero_add] at H
    exact H

/-- The result of redshift `i`, of the range `rg`: its row is that of the fit of the template from the sample `off` on, whose wavelength `tl` is that of
the first sample of the spectrum at rest, with the IGM curves of the first redshift of the range; the prior is then added. -/
def RowAt (sq : K → K) (x : Ctx K) (err axis base : List K) (dtd : K) (ei : K → Res Int) (priors : List (List (Prior K))) (zs : List K)
    (rg : Int × Int) (i : Nat) (o : Option (Row K)) : Prop :=
  ∃ (row row' : Row K) (off k0 : Nat) (z l0 tl : K), o = some row' ∧ copyRow sq x.thr dtd ei priors i row = .ok row' ∧
    zs[i]? = some z ∧ x.spcAxis[0]? = some l0 ∧ axis[off]? = some tl ∧ tl ≠ 0 ∧ off + x.spcAxis.length ≤ axis.length ∧ k0 ≤ off ∧
    |(1 + z) - l0 / tl| / (l0 / tl) ≤ 5 / 10000000 ∧
    RowSpec x (fun a b => samplesAt x err axis base (dustOf x (x.ebmv.getD a 0)) (igmOf x (zs.getD rg.1.toNat 0) (x.meiksin.getD b 0)) off)
      (fun b => if x.igm = true ∧ ¬ (1216 < axis.getD k0 0 ∧ 1 < x.meiksin.length) then x.meiksin.getD b 0 else -1) row

theorem allzStep_spec [FloorRing K] {σ : Type} {sq lg : K → K} {est : Nat → σ → List K → List K → ℤ → Res (List K × σ)} {s0 : σ} (hest : EstOk est s0)
    (hsq : IsSqrt sq) {x : Ctx K} {step : K} {err axis base inv : List K} {dtd : K} {hd hi : Bool} {ei : K → Res Int}
    {priors : List (List (Prior K))} {zs : List K} {rg : Int × Int} {st st' : List (Option (Row K)) × Tpl.T K}
    (hfl : x.flux.length = x.spcAxis.length) (hel : err.length = x.spcAxis.length) (hen : ∀ e ∈ err, e ≠ 0)
    (hinv : inv = err.map fun e => 1 / (e * e))
    (hdtd : dtd = ∑ j ∈ Finset.range x.spcAxis.length, x.flux.getD j 0 * x.flux.getD j 0 * (1 / (err.getD j 0 * err.getD j 0)))
    (hs : axis.Pairwise (· ≤ ·)) (ht : ∃ ext, Tpl.Inv x.c axis hd hi st.2 ⟨base, ext⟩ ∧ ((x.igm || x.ism) = false → ext = none))
    (hne : x.ebmv ≠ []) (hnm : x.meiksin ≠ []) (hmax : x.c.igmMax ≤ 1216)
    (h0 : 0 ≤ rg.1) (h1 : rg.1 ≤ rg.2) (h2 : rg.2 < zs.length)
    (hsub : (if x.igm = true ∧ 1 < zs.length then (zs.take (rg.2 + 1).toNat).drop rg.1.toNat else zs) = (zs.take (rg.2 + 1).toNat).drop rg.1.toNat)
    (hok : allzStep sq lg est s0 x step inv dtd ei priors zs rg st = .ok st') :
    (∃ ext, Tpl.Inv x.c axis hd hi st'.2 ⟨base, ext⟩ ∧ ((x.igm || x.ism) = false → ext = none)) ∧ st'.1.length = st.1.length ∧
    (∀ k : Nat, k < rg.1 → st'.1[k]? = st.1[k]?) ∧
    ∀ k : Nat, rg.1 ≤ k → k ≤ rg.2 → ∃ o, st'.1[k]? = some o ∧ RowAt sq x err axis base dtd ei priors zs rg k o := by
  obtain ⟨ext, ht, hext⟩ := ht
  unfold allzStep at hok
  obtain ⟨zb, -, hok⟩ := Res.bind_eq_ok.1 hok
  obtain ⟨ze, -, hok⟩ := Res.bind_eq_ok.1 hok
  rw [if_neg (by omega)] at hok
  simp only [] at hok
  obtain ⟨il, -, hok⟩ := Res.bind_eq_ok.1 hok
  obtain ⟨⟨rows, t'⟩, hfit, hok⟩ := Res.bind_eq_ok.1 hok
  obtain ⟨out, hcp, hok⟩ := Res.bind_eq_ok.1 hok
  cases hok
  rw [hsub] at hfit
  set sub := (zs.take (rg.2 + 1).toNat).drop rg.1.toNat with hsubdef
  have hsl : sub.length = (rg.2 - rg.1 + 1).toNat := by
    rw [hsubdef, List.length_drop, List.length_take]; omega
  have hsg : ∀ k : Nat, k < sub.length → sub[k]? = zs[rg.1.toNat + k]? := by
    intro k hk
    rw [hsubdef, List.getElem?_drop, List.getElem?_take_of_lt (by omega)]
  obtain ⟨r1, r2, r3, r4, r5, r6⟩ := C128_fit hest hsq hfl hel hen hinv hdtd hs ht hext hne hnm hmax hfit
  obtain ⟨c1, c2, c3, c4⟩ := copyRows_spec _ _ _ _ hcp
  refine ⟨r5, c1, fun k hk => c3 k (Or.inl (by omega)), fun k hk1 hk2 => ?_⟩
  have hkr : k - rg.1.toNat < rows.length := by rw [r1, hsl]; omega
  obtain ⟨r', d1, d2⟩ := c4 (k - rg.1.toNat) rows[k - rg.1.toNat] (List.getElem?_eq_getElem hkr)
  rw [show rg.1.toNat + (k - rg.1.toNat) = k by omega] at d1 d2
  obtain ⟨q1, z, l0, tl, q2, q3, q4, q5, q6⟩ := r6 _ _ (List.getElem?_eq_getElem hkr)
  refine ⟨some r', d2, rows[k - rg.1.toNat], r', _, il.1.toNat, z, l0, tl, rfl, d1, ?_, q3, q4, q5, ?_, by omega, q6, ?_⟩
  · rw [hsg _ (by rw [← r1]; exact hkr), show rg.1.toNat + (k - rg.1.toNat) = k by omega] at q2
    exact q2
  · have : 0 < x.spcAxis.length := (List.getElem?_eq_some_iff.1 q3).1
    rw [hsl]
    rw [r1, hsl] at hkr
    omega
  · have e0 : sub.getD 0 0 = zs.getD rg.1.toNat 0 := by
      rw [List.getD_eq_getElem?_getD, List.getD_eq_getElem?_getD, hsg 0 (by omega)]
      rfl
    rw [← e0]
    exact q1

theorem allzLoop_spec [FloorRing K] {σ : Type} {sq lg : K → K} {est : Nat → σ → List K → List K → ℤ → Res (List K × σ)} {s0 : σ} (hest : EstOk est s0)
    (hsq : IsSqrt sq) {x : Ctx K} {step : K} {err axis base inv : List K} {dtd : K} {hd hi : Bool} {ei : K → Res Int}
    {priors : List (List (Prior K))} {zs : List K}
    (hfl : x.flux.length = x.spcAxis.length) (hel : err.length = x.spcAxis.length) (hen : ∀ e ∈ err, e ≠ 0)
    (hinv : inv = err.map fun e => 1 / (e * e))
    (hdtd : dtd = ∑ j ∈ Finset.range x.spcAxis.length, x.flux.getD j 0 * x.flux.getD j 0 * (1 / (err.getD j 0 * err.getD j 0)))
    (hs : axis.Pairwise (· ≤ ·)) (hne : x.ebmv ≠ []) (hnm : x.meiksin ≠ []) (hmax : x.c.igmMax ≤ 1216) (all : List (Int × Int)) :
    ∀ (rgs : List (Int × Int)) (a : Nat) (st st' : List (Option (Row K)) × Tpl.T K), Chain zs.length a rgs → (∀ rg ∈ rgs, rg ∈ all) →
    (∀ rg ∈ rgs, 0 ≤ rg.1 ∧ rg.1 ≤ rg.2 ∧ rg.2 < zs.length ∧
      (if x.igm = true ∧ 1 < zs.length then (zs.take (rg.2 + 1).toNat).drop rg.1.toNat else zs) = (zs.take (rg.2 + 1).toNat).drop rg.1.toNat) →
    (∃ ext, Tpl.Inv x.c axis hd hi st.2 ⟨base, ext⟩ ∧ ((x.igm || x.ism) = false → ext = none)) →
    (∀ k : Nat, k < a → ∃ o rg, rg ∈ all ∧ rg.1 ≤ k ∧ k ≤ rg.2 ∧ st.1[k]? = some o ∧ RowAt sq x err axis base dtd ei priors zs rg k o) →
    allzLoop sq lg est s0 x step inv dtd ei priors zs rgs st = .ok st' →
    st'.1.length = st.1.length ∧ (∃ ext, Tpl.Inv x.c axis hd hi st'.2 ⟨base, ext⟩ ∧ ((x.igm || x.ism) = false → ext = none)) ∧
    ∀ k : Nat, k < zs.length → ∃ o rg, rg ∈ all ∧ rg.1 ≤ k ∧ k ≤ rg.2 ∧ st'.1[k]? = some o ∧ RowAt sq x err axis base dtd ei priors zs rg k o
  | [], a, st, st', hch, _, _, _, _, _ => by cases hch
  | rg :: rgs, a, st, st', hch, hall, hin, ht, hdone, hok => by
    unfold allzLoop at hok
    obtain ⟨s1, e1, hok2⟩ := Res.bind_eq_ok.1 hok
    clear hok
    obtain ⟨p1, p2, p3, p4⟩ := hin rg (by simp)
    obtain ⟨q1, q2, q3, q4⟩ := allzStep_spec hest hsq hfl hel hen hinv hdtd hs ht hne hnm hmax p1 p2 p3 p4 e1
    have hstep : ∀ k : Nat, (k : Int) ≤ rg.2 → rg.1 = a → ∃ o rg, rg ∈ all ∧ rg.1 ≤ k ∧ k ≤ rg.2 ∧ s1.1[k]? = some o ∧
        RowAt sq x err axis base dtd ei priors zs rg k o := by
      intro k hk ha
      by_cases hka : k < a
      · obtain ⟨o, r, o1, o2, o3, o4, o5⟩ := hdone k hka
        exact ⟨o, r, o1, o2, o3, by rw [q3 k (by omega)]; exact o4, o5⟩
      · obtain ⟨o, o1, o2⟩ := q4 k (by omega) hk
        exact ⟨o, rg, hall rg (by simp), by omega, hk, o1, o2⟩
    cases hch with
    | last =>
      rw [allzLoop] at hok2
      injection hok2 with hok2
      subst hok2
      exact ⟨q2, q1, fun k hk => hstep k (by simp only []; omega) rfl⟩
    | cons _ b _ hch =>
      simp only [] at p2 p3 hstep
      obtain ⟨b', rfl⟩ : ∃ b' : Nat, b = (b' : Int) := ⟨b.toNat, by omega⟩
      have hch' : Chain zs.length ((b' + 1 : Nat) : Int) rgs := by rw [Nat.cast_add, Nat.cast_one]; exact hch
      obtain ⟨w1, w2, w3⟩ := allzLoop_spec hest hsq hfl hel hen hinv hdtd hs hne hnm hmax all rgs (b' + 1) s1 st' hch'
        (fun r hr => hall r (List.mem_cons_of_mem _ hr)) (fun r hr => hin r (List.mem_cons_of_mem _ hr)) q1
        (fun k hk => hstep k (by omega) trivial) hok2
      exact ⟨w1.trans q2, w2, w3⟩

/-- **C131**: when the fit returns, each redshift has one result, that of the template shifted to it (within 5e-7), with the IGM curves of the first redshift of
its range; the chi2 of all configurations are kept and the reported one is the smallest, the prior excepted. -/
theorem C131_fit_partial [FloorRing K] {σ : Type} {sq lg : K → K} {est : Nat → σ → List K → List K → ℤ → Res (List K × σ)} {s0 : σ} (hest : EstOk est s0)
    (hsq : IsSqrt sq) {x : Ctx K} {step : K} {err bins axis base : List K} {hd hi : Bool} {ei : K → Res Int}
    {priors : List (List (Prior K))} {zs : List K} {t : Tpl.T K} {ext : Option (Int × Int × K × Int × Int)} {r : List (Option (Row K)) × Tpl.T K}
    (hfl : x.flux.length = x.spcAxis.length) (hel : err.length = x.spcAxis.length) (hs : axis.Pairwise (· ≤ ·))
    (ht : Tpl.Inv x.c axis hd hi t ⟨base, ext⟩) (hext : (x.igm || x.ism) = false → ext = none)
    (hne : x.ebmv ≠ []) (hnm : x.meiksin ≠ []) (hmax : x.c.igmMax ≤ 1216) (hz : zs.Pairwise (· < ·)) (hzne : zs ≠ []) (hspc : x.spcAxis ≠ [])
    (hbins : bins.Pairwise (· < ·)) (hbne : bins ≠ [])
    (hok : fitAllz sq lg est s0 x step err bins ei priors zs t = .ok r) :
    (∀ e ∈ err, e ≠ 0) ∧ r.1.length = zs.length ∧
    ∃ rgs, findZRanges x.igm x.spcAxis bins zs = .ok rgs ∧ ∀ k : Nat, k < zs.length →
      ∃ o rg, rg ∈ rgs ∧ rg.1 ≤ k ∧ k ≤ rg.2 ∧ r.1[k]? = some o ∧
        RowAt sq x err axis base (∑ j ∈ Finset.range x.spcAxis.length, x.flux.getD j 0 * x.flux.getD j 0 * (1 / (err.getD j 0 * err.getD j 0)))
          ei priors zs rg k o := by
  have hzp := List.length_pos_of_ne_nil hzne
  have hsp := List.length_pos_of_ne_nil hspc
  obtain ⟨rgs, e, hch, hin, -, -⟩ := C129_ranges_partial (igm := x.igm) (spcAxis := x.spcAxis) (bins := bins) hz (List.getElem?_eq_getElem hsp)
    (List.getElem?_eq_getElem hzp) (List.getElem?_eq_getElem (by omega : zs.length - 1 < zs.length)) hbins hbne
  unfold fitAllz at hok
  rw [e, Res.bind_ok] at hok
  obtain ⟨⟨inv, dtd⟩, h1, hok⟩ := Res.bind_eq_ok.1 hok
  obtain ⟨s1, s2, s3⟩ := spcSums_spec h1
  rw [hel] at s3
  have hrg : ∀ rg ∈ rgs, 0 ≤ rg.1 ∧ rg.1 ≤ rg.2 ∧ rg.2 < zs.length ∧
      (if x.igm = true ∧ 1 < zs.length then (zs.take (rg.2 + 1).toNat).drop rg.1.toNat else zs) = (zs.take (rg.2 + 1).toNat).drop rg.1.toNat := by
    intro rg hr
    obtain ⟨p1, p2, p3, p4⟩ := hin rg hr
    by_cases c : x.igm = true ∧ 1 < zs.length
    · exact ⟨p1, allzLoop_nonempty c.1 c.2 _ _ _ hok rg hr, p4, if_pos c⟩
    · rw [if_neg c]
      have hone : rg = (0, (zs.length : Int) - 1) := by
        rcases Bool.eq_false_or_eq_true x.igm with hi | hi
        · have hl1 : zs.length = 1 := by
            have : ¬ 1 < zs.length := fun h => c ⟨hi, h⟩
            omega
          unfold findZRanges at e
          rw [hi, Res.at_of_lt hzp, Res.bind_ok, Res.at_of_lt (by omega : zs.length - 1 < zs.length), Res.bind_ok, if_pos rfl,
            Res.at_of_lt hsp, Res.bind_ok] at e
          obtain ⟨sp, e1, e⟩ := Res.bind_eq_ok.1 e
          cases e
          have hfb : zs[zs.length - 1] = zs[0] := by congr 1; omega
          rw [hfb] at e1
          obtain ⟨l', cs, f1, ⟨-, f2⟩, f3⟩ := zSplits_spec (l0 := x.spcAxis[0]) hz hzne (List.getElem?_eq_getElem hzp)
            (back := zs[0]) (by rw [show zs.length - 1 = 0 by omega]; exact List.getElem?_eq_getElem hzp) hbins hbne
          rw [e1] at f1
          cases f1
          have : cs = [] := by
            rw [List.eq_nil_iff_forall_not_mem]
            intro v hv
            have := (f3 v).1 hv
            exact absurd (this.2.1.trans this.2.2.1) (lt_irrefl _)
          subst this
          cases f2
          simpa [mkRanges] using hr
        · unfold findZRanges at e
          rw [hi, Res.at_of_lt hzp, Res.bind_ok, Res.at_of_lt (by omega : zs.length - 1 < zs.length), Res.bind_ok, if_neg (by simp), Res.bind_ok] at e
          cases e
          simpa [mkRanges] using hr
      rw [hone]
      refine ⟨le_rfl, by simp only []; omega, by simp only []; omega, ?_⟩
      rw [show ((zs.length : Int) - 1 + 1).toNat = zs.length by omega, List.take_length]
      rfl
  have H := allzLoop_spec (hd := hd) (hi := hi) (base := base) hest hsq hfl hel s1 s2 s3 hs hne hnm hmax rgs rgs 0 _ r
    (by rw [Nat.cast_zero]; exact hch) (fun _ h => h) hrg ⟨ext, ht, hext⟩ (fun k hk => absurd hk (Nat.not_lt_zero _)) hok
  obtain ⟨w1, w2, w3⟩ := H
  rw [List.length_replicate] at w1
  subst s3
  exact ⟨s1, w1, rgs, e, w3⟩

end TplLog
end Amazed
