import Verif.Props.TplLogFit

set_option linter.unusedSectionVars false
set_option linter.unusedVariables false

/-! # Template fitting on log-sampled grids: the fit of a range of redshifts (C128), main theorems -/

namespace Amazed
namespace TplLog

open TplFit (Prior setTbl Sample sumsOf weight IsSqrt get2 val)

variable {K : Type} [Field K] [LinearOrder K] [IsStrictOrderedRing K]

/-! ## The loops -/

/-- The correlation keeps its invariant `I`. -/
def EstInv {σ : Type} (est : Nat → σ → List K → List K → ℤ → Res (List K × σ)) (I : Nat → List K → List K → σ → Prop) : Prop :=
  ∀ n x0 x1 s x y flag, I n x0 x1 s → ((flag = 0 ∧ x = x0) ∨ (flag = 1 ∧ x = x1)) → y ≠ [] → y.length ≤ n → x.length ≤ y.length →
    ∃ s', est n s x y flag = .ok ((List.range (y.length - x.length + 1)).map
      (fun (k : Nat) => ∑ i ∈ Finset.range x.length, x.getD i 0 * y.getD (k + i) 0), s') ∧ I n x0 x1 s'

section
variable {σ : Type} {est : Nat → σ → List K → List K → ℤ → Res (List K × σ)} {I : Nat → List K → List K → σ → Prop}

theorem ism_dust {sq : K → K} {x : Ctx K} {g : Rng K} {kM kE : Nat} {mi : Int} {st st' : St K σ} (hE : kE < x.ebmv.length)
    (h : ismStep sq est x g kM mi kE st = .ok st') : x.ism = true → ∃ b, (Tpl.applyDust x.c st.t (x.ebmv.getD kE 0)).2 = .ok b := by
  intro hx
  unfold ismStep at h
  obtain ⟨kd, h1, h⟩ := Res.bind_eq_ok.1 h
  obtain ⟨t, h2, h⟩ := Res.bind_eq_ok.1 h
  have hkd : kd = x.ebmv.getD kE 0 := by
    have := Res.at_eq_ok.1 h1
    rw [List.getD_eq_getElem?_getD, this]
    rfl
  rw [if_pos hx] at h2
  obtain ⟨b, h3, _⟩ := Res.bind_eq_ok.1 h2
  exact ⟨b, by rw [← hkd]; exact h3⟩

theorem igmStep_inv (hest : EstInv est I) {sq : K → K} {x : Ctx K} {g : Rng K} {err axis base : List K} {hd hi : Bool} {z : K} {kM : Nat}
    {i : Int} {st st' : St K σ} (hS : Setup x g err axis) (hov : g.over ≠ none → kM = 0)
    (hi0 : g.igm = false → i = -1)
    (h : StInv I sq x g err axis base hd hi z i kM 0 st) (hok : igmStep sq est x g kM st = .ok st') :
    ∃ i', (g.igm = false → i' = -1) ∧ StInv I sq x g err axis base hd hi z i' (kM + 1) 0 st' := by
  unfold igmStep at hok
  obtain ⟨mi, h1, hok⟩ := Res.bind_eq_ok.1 hok
  obtain ⟨t, h2, hok⟩ := Res.bind_eq_ok.1 hok
  have h1 := Res.at_eq_ok.1 h1
  obtain ⟨hM, hmi⟩ := List.getElem?_eq_some_iff.1 h1
  have hmi : mi = x.meiksin.getD kM 0 := by rw [List.getD_eq_getElem _ _ hM]; exact hmi.symm
  subst hmi
  obtain ⟨kd, ht⟩ := h.tpl
  have ht' : TplOk x g axis base hd hi z kd (if g.igm then x.meiksin.getD kM 0 else -1) t := by
    cases hg : g.igm with
    | true =>
      rw [hg, if_pos rfl] at h2
      obtain ⟨b, h3, h4⟩ := Res.bind_eq_ok.1 h2
      cases h4
      simpa using ht.igm hS.sorted hg h3
    | false =>
      rw [hg] at h2
      simp only [Bool.false_eq_true, if_false, Res.ok.injEq] at h2
      subst h2
      have := hi0 hg
      rw [this] at ht
      simpa using ht
  have hst : StInv I sq x g err axis base hd hi z (if g.igm then x.meiksin.getD kM 0 else -1) kM 0 { st with t := t } :=
    ⟨⟨kd, ht'⟩, h.fft, h.len, h.rows⟩
  have H := TplFit.Res.foldN_inv_ok (f := ismStep sq est x g kM (x.meiksin.getD kM 0))
    (fun kE s => StInv I sq x g err axis base hd hi z (if g.igm then x.meiksin.getD kM 0 else -1) kM kE s) x.ebmv.length 0
    { st with t := t } st' hst (by
      intro kE s s' _ hE hP hs
      obtain ⟨s'', e1, e2⟩ := ismStep_ok hest hS hP (by omega) hM hov (ism_dust (by omega) hs)
      rw [hs] at e1
      cases e1
      exact e2) hok
  rw [Nat.zero_add] at H
  refine ⟨_, fun hg => by rw [hg]; rfl, H.tpl, H.fft, H.len, fun k r hr => rowInv_next (H.rows k r hr)⟩

theorem loops_inv (hest : EstInv est I) {sq : K → K} {x : Ctx K} {g : Rng K} {err axis base : List K} {hd hi : Bool} {z : K} {s0 : σ}
    (hI : I g.nPad g.x0 g.x1 s0) {t : Tpl.T K} {ext : Option (Int × Int × K × Int × Int)} (hS : Setup x g err axis)
    (ht : Tpl.Inv x.c axis hd hi t ⟨base, ext⟩) (hext : (x.igm || x.ism) = false → ext = none) (hg : g.igm = true → x.igm = true)
    {n : Nat} (hn : n = g.kend + 1 - g.kstart - x.spcAxis.length + 1) {rows : List (Row K)} {t' : Tpl.T K}
    (hok : fitLoops sq est s0 x g z n t = .ok (rows, t')) :
    (∃ kd i, TplOk x g axis base hd hi z kd i t') ∧ rows.length = n ∧
      RowsInv sq x.ebmv.length x.meiksin.length g.over (fun a => if x.ism then x.ebmvValue (x.ebmv.getD a 0) else -1)
        (fun b => if g.igm then x.meiksin.getD b 0 else -1) (cellC sq x g err axis base z) (nLoops x g) 0 0 rows.reverse := by
  unfold fitLoops at hok
  obtain ⟨t1, h1, hok⟩ := Res.bind_eq_ok.1 hok
  obtain ⟨st, h2, hok⟩ := Res.bind_eq_ok.1 hok
  have ht1 : TplOk x g axis base hd hi z (-1) (-1) t1 := by
    cases hx : (x.igm || x.ism) with
    | true =>
      rw [hx, if_pos rfl] at h1
      obtain ⟨u, h3, h4⟩ := Res.bind_eq_ok.1 h1
      cases h4
      have := Tpl.inv_step x.c hS.sorted ht (.init g.kstart g.kend z) h3
      refine ⟨?_, fun _ => rfl, fun _ => rfl, fun _ h => absurd h (by norm_num), hg⟩
      rw [hx, if_pos rfl]
      exact this
    | false =>
      rw [hx] at h1
      simp only [Bool.false_eq_true, if_false, Res.ok.injEq] at h1
      subst h1
      refine ⟨?_, fun _ => rfl, fun _ => rfl, fun _ h => absurd h (by norm_num), hg⟩
      rw [hx]
      rw [hext hx] at ht
      simpa using ht
  have hst : StInv I sq x g err axis base hd hi z (-1) 0 0 ⟨t1, s0, List.replicate n (emptyRow x.ebmv.length x.meiksin.length)⟩ := by
    refine ⟨⟨-1, ht1⟩, hI, by rw [List.length_replicate, hn], ?_⟩
    intro k r hr
    have := List.eq_of_mem_replicate (List.mem_of_getElem? hr)
    rw [this]
    exact rowInv_start
  have H := TplFit.Res.foldN_inv_ok (f := igmStep sq est x g)
    (fun kM s => ∃ i, (g.igm = false → i = -1) ∧ StInv I sq x g err axis base hd hi z i kM 0 s) (nLoops x g) 0 _ st ⟨-1, fun _ => rfl, hst⟩ (by
      rintro kM s s' _ hlt ⟨i, hi0, hP⟩ hs
      refine igmStep_inv hest hS ?_ hi0 hP hs
      intro ho
      unfold nLoops at hlt
      cases e : g.over with
      | none => exact absurd e ho
      | some v => rw [e] at hlt; simp at hlt; exact hlt) h2
  obtain ⟨i, -, H⟩ := H
  rw [Nat.zero_add] at H
  cases hok
  obtain ⟨kd, hk⟩ := H.tpl
  refine ⟨⟨kd, i, hk⟩, ?_, ?_⟩
  · rw [List.length_reverse, H.len, hn]
  · rw [List.reverse_reverse]
    exact H.rows
end

/-! ## From the cells to the specification -/

theorem row_spec {sq : K → K} (hsq : IsSqrt sq) {x : Ctx K} {g : Rng K} {err axis : List K} (hS : Setup x g err axis) {base : List K} {z : K}
    {k : Nat} {r : Row K} (hne : x.ebmv ≠ []) (hnm : x.meiksin ≠ [])
    (h : RowInv sq x.ebmv.length x.meiksin.length g.over (fun a => if x.ism then x.ebmvValue (x.ebmv.getD a 0) else -1)
      (fun b => if g.igm then x.meiksin.getD b 0 else -1) (cellC sq x g err axis base z k) (nLoops x g) 0 r) :
    RowSpec x (fun a b => cfg x g err axis base z k a b) (fun b => if g.igm then x.meiksin.getD b 0 else -1) r := by
  have hE := List.length_pos_of_ne_nil hne
  have hM := List.length_pos_of_ne_nil hnm
  have hspec : ∀ a b, CellSpec x.thr (cfg x g err axis base z k a b) (cellC sq x g err axis base z k a b).chi2
      (cellC sq x g err axis base z k a b).amp (cellC sq x g err axis base z k a b).ampErr (cellC sq x g err axis base z k a b).ampSigma
      (snrOf sq (cellC sq x g err axis base z k a b)) := by
    intro a b
    have := cellV_spec hsq x.thr (cfg x g err axis base z k a b) (cfg_err hS base z k a b)
    rw [cfg_s hS] at this
    exact this
  have hC : ∀ a b, g.over.isSome = true → cellC sq x g err axis base z k a b = cellC sq x g err axis base z k a 0 := by
    intro a b ho
    rcases hS.over with q | ⟨-, q⟩
    · rw [q] at ho; cases ho
    · unfold cellC cfg igmIn
      rw [q]
      rfl
  have hentry : ∀ a b : Nat, a < x.ebmv.length → b < x.meiksin.length →
      get2 r.tbl a b = some (some (cellC sq x g err axis base z k a b).chi2) := by
    intro a b ha hb
    rcases hS.over with q | ⟨q, -⟩
    · have := h.tbl a b hb (Or.inl (by unfold Done nLoops; rw [q]; simp only []; omega))
      simpa [q] using this
    · have := h.tbl a b hb (Or.inr ⟨by rw [q]; rfl, by unfold Done nLoops; rw [q]; simp; omega⟩)
      rw [this, q]
      simp only [Option.isSome_some, if_true]
      rw [hC a b (by rw [q]; rfl)]
  have hin : ∀ (a b : Nat) (v : K), get2 r.tbl a b = some (some v) →
      a < x.ebmv.length ∧ b < x.meiksin.length ∧ v = (cellC sq x g err axis base z k a b).chi2 := by
    intro a b v hv
    obtain ⟨h1, row, h2, h3, h4⟩ := TplFit.get2_lt hv
    rw [h.dims.1] at h1
    rw [h.dims.2 row h2] at h4
    rw [hentry a b h1 h4] at hv
    simp only [Option.some.injEq] at hv
    exact ⟨h1, h4, hv.symm⟩
  refine ⟨⟨h.dims.1, h.dims.2⟩, ?_, ?_⟩
  · intro a b ha hb
    exact ⟨_, _, _, _, _, hspec a b, hentry a b ha hb⟩
  · have hN : 0 < nLoops x g := by
      unfold nLoops
      split
      · omega
      · exact hM
    obtain ⟨a, b, d1, e1, hmin, hfirst⟩ := h.best ⟨0, 0, by unfold Done; omega⟩
    have hbN : b < nLoops x g := by unfold Done at d1; omega
    have hNle : nLoops x g ≤ x.meiksin.length := by
      unfold nLoops
      split
      · omega
      · exact le_rfl
    refine ⟨a, b, _, d1.1, by omega, e1, hspec a b, ?_, ?_, rfl, rfl, rfl, ?_⟩
    · show (cellC sq x g err axis base z k a b).mtm = _
      rw [TplFit.weight_sums]
      unfold cellC cellV
      split <;> rfl
    · show (cellC sq x g err axis base z k a b).dtm = _
      have : (cellC sq x g err axis base z k a b).dtm = (sumsOf (cfg x g err axis base z k a b)).cross := by
        unfold cellC cellV
        split <;> rfl
      rw [this]
      unfold sumsOf
      show (List.map _ _).sum = _
      congr 1
      apply List.map_congr_left
      intro s _
      ring
    · intro a' b' v hv
      obtain ⟨ha', hb', rfl⟩ := hin a' b' v hv
      rcases hS.over with q | ⟨q, -⟩
      · have hd : Done x.ebmv.length (nLoops x g) 0 a' b' := by unfold Done nLoops; rw [q]; simp only []; omega
        exact ⟨hmin a' b' hd, hfirst a' b' hd⟩
      · have hN1 : nLoops x g = 1 := by unfold nLoops; rw [q]
        have hd : Done x.ebmv.length (nLoops x g) 0 a' 0 := by unfold Done; omega
        rw [hC a' b' (by rw [q]; rfl)]
        refine ⟨hmin a' 0 hd, fun hb => hfirst a' 0 hd ?_⟩
        omega

/-- Above the IGM range the IGM does not matter. -/
theorem cfg_eq {x : Ctx K} {g : Rng K} {err axis : List K} (hS : Setup x g err axis) {base : List K} {z : K} (hmax : x.c.igmMax ≤ 1216)
    (hg : g.igm = (x.igm && g.over.isNone)) (hlo : g.over ≠ none → 1216 < axis.getD g.kstart 0) (k a b : Nat)
    (hk : g.kstart + k + x.spcAxis.length ≤ g.kend + 1) :
    cfg x g err axis base z k a b =
      samplesAt x err axis base (dustOf x (x.ebmv.getD a 0)) (igmOf x z (x.meiksin.getD b 0)) (g.kstart + k) := by
  unfold cfg samplesAt
  apply List.map_congr_left
  intro j hj
  rw [List.mem_range] at hj
  have : igmIn x g.igm z (x.meiksin.getD b 0) (axis.getD (g.kstart + k + j) 0) =
      igmOf x z (x.meiksin.getD b 0) (axis.getD (g.kstart + k + j) 0) := by
    unfold igmIn
    split
    · rfl
    · rename_i hf
      unfold igmOf
      by_cases ho : g.over = none
      · rw [hg, ho] at hf
        simp only [Option.isNone_none, Bool.and_true] at hf
        rw [if_neg (by tauto)]
      · have h1 := hlo ho
        have hke := hS.kend
        have h2 : axis.getD g.kstart 0 ≤ axis.getD (g.kstart + k + j) 0 := by
          rw [List.getD_eq_getElem _ _ (by omega), List.getD_eq_getElem _ _ (by omega)]
          by_cases hkj : k + j = 0
          · have : g.kstart + k + j = g.kstart := by omega
            simp only [this]
            exact le_rfl
          · exact List.pairwise_iff_getElem.1 hS.sorted _ _ _ _ (by omega)
        rw [if_neg]
        rintro ⟨-, -, h3⟩
        linarith
  rw [this]

/-! ## The check of the redshift grid -/

theorem zErrors_spec {l0 : K} {axis zv : List K} {kstart n : Nat} {e : K} (h : zErrors l0 axis zv kstart n = .ok e) :
    ∀ t : Nat, t < n → ∃ tl z et, axis[t + kstart]? = some tl ∧ zv[t]? = some z ∧ zError l0 tl z = .ok et ∧ et ≤ e := by
  unfold zErrors at h
  have H := TplFit.Res.foldN_inv_ok (f := fun t m => Res.at_ axis (t + kstart) >>= fun tl => Res.at_ zv t >>= fun z => zError l0 tl z >>= fun e =>
    .ok (if m < e then e else m))
    (fun k m => ∀ t : Nat, t < k → ∃ tl z et, axis[t + kstart]? = some tl ∧ zv[t]? = some z ∧ zError l0 tl z = .ok et ∧ et ≤ m) n 0 0 e
    (fun t ht => by omega) (by
      intro k m m' _ _ hP hm
      obtain ⟨tl, h1, hm⟩ := Res.bind_eq_ok.1 hm
      obtain ⟨z, h2, hm⟩ := Res.bind_eq_ok.1 hm
      obtain ⟨et, h3, hm⟩ := Res.bind_eq_ok.1 hm
      simp only [Res.ok.injEq] at hm
      have hmm : m ≤ m' ∧ et ≤ m' := by
        rw [← hm]
        split
        · exact ⟨by linarith, le_rfl⟩
        · exact ⟨le_rfl, by linarith⟩
      intro t ht
      by_cases htk : t = k
      · subst htk
        exact ⟨tl, z, et, Res.at_eq_ok.1 h1, Res.at_eq_ok.1 h2, h3, hmm.2⟩
      · obtain ⟨a, b, c, q1, q2, q3, q4⟩ := hP t (by omega)
        exact ⟨a, b, c, q1, q2, q3, le_trans q4 hmm.1⟩) h
  simpa using H

/-! ## C128 -/

/-- **C128**: whenever the fit of a range of redshifts returns, it has one row per redshift; the row of the redshift number `r` is the
table of the least squares fits of the spectrum to the template from its sample `rg.1 + (n - 1 - r)`, with each dust coefficient
and the IGM coefficient of each curve at the first redshift of the range, and the first best of them. The wavelength of this sample
of the template, redshifted, is the first of the spectrum within 5e-7 (relative). The IGM index is not reported when the range is
above 1216 and there are several curves. The template is given back with its flux without extinction unchanged. -/
theorem C128_fit {σ : Type} {est : Nat → σ → List K → List K → ℤ → Res (List K × σ)} {s0 : σ} (hest : EstOk est s0) {sq : K → K}
    (hsq : IsSqrt sq) {x : Ctx K} {err axis base inv : List K} {dtd : K} {hd hi : Bool} {t t' : Tpl.T K}
    {ext : Option (Int × Int × K × Int × Int)} {rg : Int × Int} {zs : List K} {rows : List (Row K)}
    (hfl : x.flux.length = x.spcAxis.length) (hel : err.length = x.spcAxis.length) (hen : ∀ e ∈ err, e ≠ 0)
    (hinv : inv = err.map fun e => 1 / (e * e))
    (hdtd : dtd = ∑ j ∈ Finset.range x.spcAxis.length, x.flux.getD j 0 * x.flux.getD j 0 * (1 / (err.getD j 0 * err.getD j 0)))
    (hs : axis.Pairwise (· ≤ ·)) (ht : Tpl.Inv x.c axis hd hi t ⟨base, ext⟩) (hext : (x.igm || x.ism) = false → ext = none)
    (hne : x.ebmv ≠ []) (hnm : x.meiksin ≠ []) (hmax : x.c.igmMax ≤ 1216)
    (hok : fitRangez sq est s0 x inv dtd rg zs t = .ok (rows, t')) :
    rows.length = zs.length ∧ rg.2 - rg.1 + 1 = x.spcAxis.length + zs.length - 1 ∧ 0 ≤ rg.1 ∧ rg.2 < axis.length ∧
    (∃ ext', Tpl.Inv x.c axis hd hi t' ⟨base, ext'⟩ ∧ ((x.igm || x.ism) = false → ext' = none)) ∧
    ∀ (r : Nat) (row : Row K), rows[r]? = some row →
      RowSpec x (fun a b => samplesAt x err axis base (dustOf x (x.ebmv.getD a 0)) (igmOf x (zs.getD 0 0) (x.meiksin.getD b 0))
          (rg.1.toNat + (zs.length - 1 - r)))
        (fun b => if x.igm = true ∧ ¬ (1216 < axis.getD rg.1.toNat 0 ∧ 1 < x.meiksin.length) then x.meiksin.getD b 0 else -1) row ∧
      ∃ z l0 tl, zs[r]? = some z ∧ x.spcAxis[0]? = some l0 ∧ axis[rg.1.toNat + (zs.length - 1 - r)]? = some tl ∧ tl ≠ 0 ∧
        |(1 + z) - l0 / tl| / (l0 / tl) ≤ 5 / 10000000 := by
  obtain ⟨I, hI, hest⟩ := hest
  unfold fitRangez at hok
  by_cases hneg : rg.1 < 0 ∨ rg.2 < 0
  · rw [if_pos hneg] at hok; cases hok
  rw [if_neg hneg] at hok
  simp only [] at hok
  obtain ⟨x0, h1, hok⟩ := Res.bind_eq_ok.1 hok
  obtain ⟨z0, h2, hok⟩ := Res.bind_eq_ok.1 hok
  obtain ⟨l0, h3, hok⟩ := Res.bind_eq_ok.1 hok
  obtain ⟨lo, h4, hok⟩ := Res.bind_eq_ok.1 hok
  obtain ⟨lk, h5, hok⟩ := Res.bind_eq_ok.1 hok
  by_cases hsh : rg.2 - rg.1 + 1 - (x.spcAxis.length : Int) + 1 < 0
  · rw [if_pos hsh] at hok; cases hok
  rw [if_neg hsh] at hok
  obtain ⟨e, h6, hok⟩ := Res.bind_eq_ok.1 hok
  by_cases he : 5 / 10000000 < e
  · rw [if_pos he] at hok; cases hok
  rw [if_neg he] at hok
  by_cases hzl : zs.length ≠ (rg.2 - rg.1 + 1 - (x.spcAxis.length : Int) + 1).toNat
  · rw [if_pos hzl] at hok; cases hok
  rw [if_neg hzl] at hok
  push Not at hzl hneg
  have h2 := Res.at_eq_ok.1 h2
  have h3 := Res.at_eq_ok.1 h3
  have h4 := Res.at_eq_ok.1 h4
  have h5 := Res.at_eq_ok.1 h5
  rw [ht.axis_eq] at h4 h5 h6
  have hzpos : 0 < zs.length := (List.getElem?_eq_some_iff.1 h2).1
  have hspos : 0 < x.spcAxis.length := (List.getElem?_eq_some_iff.1 h3).1
  have hkend : rg.2.toNat < axis.length := (List.getElem?_eq_some_iff.1 h5).1
  have hz0 : zs.getD 0 0 = z0 := by rw [List.getD_eq_getElem?_getD, h2]; rfl
  have hlo : axis.getD rg.1.toNat 0 = lo := by rw [List.getD_eq_getElem?_getD, h4]; rfl
  set g : Rng K := ⟨((rg.2 - rg.1 + 1).toNat + 1) / 2 * 2, rg.1.toNat, rg.2.toNat, x0, inv, dtd,
    x.igm && (override lo x.meiksin.length).isNone, override lo x.meiksin.length⟩ with hg
  have hil : ∀ j : Nat, j < x.spcAxis.length → inv.getD j 0 = 1 / (err.getD j 0 * err.getD j 0) := by
    intro j hj
    rw [hinv, List.getD_eq_getElem _ _ (by rw [List.length_map, hel]; exact hj), List.getElem_map,
      List.getD_eq_getElem _ _ (by rw [hel]; exact hj)]
  have hS : Setup x g err axis := by
    refine ⟨hfl, hel, hspos, hen, hs, ?_, ?_, hdtd, hkend, ?_, ?_, ?_⟩
    · show x0 = _
      apply List.ext_getElem
      · rw [Res.tab_length _ h1]; simp
      · intro j hj1 hj2
        rw [List.length_map, List.length_range] at hj2
        obtain ⟨v, q1, q2⟩ := Res.tab_get _ h1 j hj2
        have q3 : x0[j] = v := by
          rw [List.getElem?_eq_getElem hj1] at q1
          exact Option.some.inj q1
        obtain ⟨f, r1, q2⟩ := Res.bind_eq_ok.1 q2
        obtain ⟨w, r2, q2⟩ := Res.bind_eq_ok.1 q2
        simp only [Res.ok.injEq] at q2
        rw [q3, ← q2, List.getElem_map, List.getElem_range, ← hil j hj2, List.getD_eq_getElem?_getD, Res.at_eq_ok.1 r1,
          List.getD_eq_getElem?_getD, Res.at_eq_ok.1 r2]
        rfl
    · show inv = _
      apply List.ext_getElem
      · rw [hinv]; simp [hel]
      · intro j hj1 hj2
        rw [List.length_map, List.length_range] at hj2
        rw [List.getElem_map, List.getElem_range, ← hil j hj2, List.getD_eq_getElem _ _ hj1]
    · show rg.1.toNat + x.spcAxis.length ≤ rg.2.toNat + 1
      omega
    · show rg.2.toNat + 1 - rg.1.toNat ≤ ((rg.2 - rg.1 + 1).toNat + 1) / 2 * 2
      omega
    · show override lo x.meiksin.length = none ∨ (override lo x.meiksin.length = some x.meiksin.length ∧
        (x.igm && (override lo x.meiksin.length).isNone) = false)
      unfold override
      split
      · right; simp
      · left; rfl
  have hn : (rg.2 - rg.1 + 1 - (x.spcAxis.length : Int) + 1).toNat = g.kend + 1 - g.kstart - x.spcAxis.length + 1 := by
    show _ = rg.2.toNat + 1 - rg.1.toNat - x.spcAxis.length + 1
    omega
  obtain ⟨⟨kd, i, htk⟩, hlen, hrows⟩ := loops_inv (I := I) hest (hI _ _ _) hS ht hext
    (by
      intro hc
      have : (x.igm && (override lo x.meiksin.length).isNone) = true := hc
      rw [Bool.and_eq_true] at this
      exact this.1) hn hok
  have hrl : rows.length = zs.length := by omega
  refine ⟨hrl, by omega, hneg.1, by omega, ?_, ?_⟩
  · refine ⟨_, htk.inv, ?_⟩
    intro hc
    rw [hc]
    rfl
  · intro r row hr
    have hrlt : r < rows.length := (List.getElem?_eq_some_iff.1 hr).1
    have hrr : rows.reverse[zs.length - 1 - r]? = some row := by
      rw [List.getElem?_reverse (by omega), hrl]
      rw [show zs.length - 1 - (zs.length - 1 - r) = r by omega]
      exact hr
    constructor
    · have hrow := row_spec hsq hS hne hnm (by simpa using hrows _ _ hrr)
      have hover : g.over ≠ none ↔ 1216 < axis.getD rg.1.toNat 0 ∧ 1 < x.meiksin.length := by
        rw [hlo]
        show override lo x.meiksin.length ≠ none ↔ _
        unfold override
        split
        · rename_i hh; simp [hh]
        · rename_i hh; simp [hh]
      have hS' : (fun a b => cfg x g err axis base z0 (zs.length - 1 - r) a b) =
          (fun a b => samplesAt x err axis base (dustOf x (x.ebmv.getD a 0)) (igmOf x (zs.getD 0 0) (x.meiksin.getD b 0))
            (rg.1.toNat + (zs.length - 1 - r))) := by
        funext a b
        rw [hz0]
        refine cfg_eq hS hmax rfl (fun ho => (hover.1 ho).1) _ a b ?_
        show rg.1.toNat + (zs.length - 1 - r) + x.spcAxis.length ≤ rg.2.toNat + 1
        omega
      have hrep : (fun b => if g.igm = true then x.meiksin.getD b 0 else -1) =
          (fun b => if x.igm = true ∧ ¬ (1216 < axis.getD rg.1.toNat 0 ∧ 1 < x.meiksin.length) then x.meiksin.getD b 0 else -1) := by
        funext b
        have : g.igm = true ↔ (x.igm = true ∧ ¬ (1216 < axis.getD rg.1.toNat 0 ∧ 1 < x.meiksin.length)) := by
          rw [← hover]
          show (x.igm && g.over.isNone) = true ↔ _
          rw [Bool.and_eq_true]
          cases g.over <;> simp
        by_cases hc : g.igm = true
        · rw [if_pos hc, if_pos (this.1 hc)]
        · rw [if_neg hc, if_neg (fun q => hc (this.2 q))]
      rw [hS', hrep] at hrow
      exact hrow
    · obtain ⟨tl, z, et, q1, q2, q3, q4⟩ := zErrors_spec h6 (zs.length - 1 - r) (by omega)
      rw [List.getElem?_reverse (by omega), show zs.length - 1 - (zs.length - 1 - r) = r by omega] at q2
      unfold zError at q3
      by_cases hz : tl = 0 ∨ 1 + (l0 - tl) / tl = 0
      · rw [if_pos hz] at q3; cases q3
      rw [if_neg hz] at q3
      push Not at hz
      simp only [Res.ok.injEq] at q3
      refine ⟨z, l0, tl, q2, h3, by rw [Nat.add_comm]; exact q1, hz.1, ?_⟩
      have e1 : 1 + (l0 - tl) / tl = l0 / tl := by
        have := hz.1
        field_simp
        ring
      have e2 : z - (l0 - tl) / tl = (1 + z) - l0 / tl := by rw [← e1]; ring
      rw [e1, e2] at q3
      rw [q3]
      exact le_trans q4 (not_lt.1 he)

/-- **C128**: when the wavelengths of the spectrum and of the template both grow by the same factor at each sample, every sample of the
template used at a redshift is at the wavelength of the sample of the spectrum it is compared with, within 5e-7 (relative). -/
theorem C128_alignment {spc axis : List K} {off : Nat} {q l0 tl z : K} (hq : 0 < q) (hl : 0 < l0) (ht : 0 < tl)
    (h0 : axis[off]? = some tl)
    (hs : ∀ (j : Nat) (w : K), spc[j]? = some w → w = l0 * q ^ j)
    (ha : ∀ (j : Nat) (w : K), axis[off + j]? = some w → w = tl * q ^ j)
    (hz : |(1 + z) - l0 / tl| / (l0 / tl) ≤ 5 / 10000000) (j : Nat) (w v : K) (hw : spc[j]? = some w) (hv : axis[off + j]? = some v) :
    |v * (1 + z) - w| ≤ 5 / 10000000 * w := by
  rw [hs j w hw, ha j v hv]
  have hr : 0 < l0 / tl := by positivity
  rw [div_le_iff₀ hr] at hz
  have hqj : 0 < q ^ j := by positivity
  have : tl * q ^ j * (1 + z) - l0 * q ^ j = tl * q ^ j * ((1 + z) - l0 / tl) := by
    field_simp
  rw [this, abs_mul, abs_of_pos (by positivity : 0 < tl * q ^ j)]
  calc tl * q ^ j * |1 + z - l0 / tl| ≤ tl * q ^ j * (5 / 10000000 * (l0 / tl)) := by
        apply mul_le_mul_of_nonneg_left hz (by positivity)
    _ = 5 / 10000000 * (l0 * q ^ j) := by field_simp

end TplLog
end Amazed
