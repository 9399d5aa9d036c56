import Verif.Model.TplCompute
import Verif.Props.TplModelProps
import Verif.Props.TplFitTotal
import Verif.Props.TplCombModel

set_option linter.unusedVariables false
set_option linter.unusedSectionVars false

/-! # C167: the fit of a template over the redshifts -/

namespace Amazed
namespace TplCompute

open TplModel (Common)

/-! ## Specification -/

/-- The samples of the observation `o` for the fit at `z` of the template `tx`, `ty`: the rest wavelengths, the template interpolated on those of the fit, the flux, the errors
and the mask of the observation; the samples of the fit are those whose rest wavelength is in the range, on the spectrum and on the template. -/
structure ObsAt (tx ty : List ℝ) (z : ℝ) (o : Input ℝ) (f : TplFit.Obs ℝ) : Prop where
  axis : f.axis = o.sx.map (· / (1 + z))
  flux : f.flux = o.flux
  err : f.err = o.err
  mask : f.mask = o.mask z
  inside : ∀ (j : Nat) (w : ℝ), f.axis[j]? = some w → ((f.kStart ≤ j ∧ j ≤ f.kEnd) ↔ Common tx o.sx o.lr z w)
  tpl : ∀ (j : Nat) (w : ℝ), f.axis[j]? = some w → Common tx o.sx o.lr z w → ∃ y, f.base[j]? = some y ∧ OnPolyline tx ty w y

/-- A usable observation: axes of one size in increasing order, non null errors. -/
structure Input.Ok (o : Input ℝ) (z : ℝ) : Prop where
  sorted : o.sx.Pairwise (· < ·)
  flux_len : o.flux.length = o.sx.length
  err_len : o.err.length = o.sx.length
  mask_len : (o.mask z).length = o.sx.length
  err_ne : ∀ e ∈ o.err, e ≠ 0

/-- The fraction of the samples of the range of wavelengths for which the template is resampled. -/
def OverlapOk (thr ov : ℝ) : Prop := thr ≤ ov ∧ 0 < ov

/-- The indices to fit: none without the option, the asked one, or all of them. -/
def IdxOf (on : Bool) (count : Nat) (idx : Int) (l : List Int) : Prop :=
  l = if on = false then [-1] else if idx ≠ -1 then [idx] else (List.range count).map fun i => (i : Int)

/-- The options of the fit at one redshift: the IGM is fitted when it is asked for and some rest wavelength of the fit is at most 1216; the priors are used when there is one
for each dust coefficient. -/
structure OptAt (tp : Tp ℝ) (a : Ask ℝ) (obs : List (Input ℝ)) (z : ℝ) (priors : List (TplFit.Prior ℝ)) (op : TplFit.Opt ℝ) : Prop where
  c : op.c = tp.c
  redshift : op.z = z
  ebmvValue : op.ebmvValue = tp.ebmvValue
  dust : op.dust = a.dust
  igm : op.igm = true ↔ a.igm = true ∧ ∃ o ∈ obs, ∃ w, Common tp.tx o.sx o.lr z w ∧ w ≤ 1216
  thr : op.thr = a.ampThr
  meiksin : IdxOf a.igm tp.nIgm a.igmIdx op.meiksin
  ebmv : IdxOf a.dust tp.nEbmv a.ebmvIdx op.ebmv
  applyPrior : op.applyPrior = true ↔ priors ≠ [] ∧ tp.hasDust = true ∧ priors.length = tp.nEbmv
  priors : op.priors = priors

/-- The row of the redshift `z`: there is a table of the least squares fits of every configuration, of which the row has the first of smallest chi2. -/
def RowAt (sq : ℝ → ℝ) (ty : List ℝ) (tp : Tp ℝ) (a : Ask ℝ) (obs : List (Input ℝ)) (z : ℝ) (priors : List (TplFit.Prior ℝ)) (row : Row ℝ) : Prop :=
  ∃ (op : TplFit.Opt ℝ) (fo : List (TplFit.Obs ℝ)) (r : TplFit.Result ℝ) (b : TplFit.Best ℝ), OptAt tp a obs z priors op ∧ List.Forall₂ (ObsAt tp.tx ty z) obs fo ∧
    TplFit.FitTable op fo r ∧ r.best = some b ∧ row.tbl = r.tbl ∧ row.chi2 = b.fit.chi2 ∧ row.ampl = b.fit.ampl ∧ row.amplErr = b.fit.amplErr ∧ row.amplSigma = b.fit.amplSigma ∧
    row.ebmv = b.ebmv ∧ row.igm = b.igm ∧ row.logprior = b.fit.logprior ∧ row.dtm = b.fit.sums.cross ∧ row.mtm = b.fit.sums.t ∧
    row.snr = (if row.mtm ≤ 0 then none else if row.dtm ≤ 0 then some 0 else some (row.dtm / sq row.mtm)) ∧
    row.overlap.length = obs.length ∧ ∀ ov ∈ row.overlap, OverlapOk a.ovThr ov

/-! ## Proofs -/

theorem rebinAll_forall {tp : Tp ℝ} {z thr : ℝ} {fl : Bool × Bool} : ∀ {obs : List (Input ℝ)} {rs : List (TplFit.Slot ℝ × ℝ × ℝ)}, rebinAll tp z thr fl obs = .ok rs →
    List.Forall₂ (fun o r => rebinObs tp z thr fl o = .ok r) obs rs := by
  intro obs
  induction obs with
  | nil => intro rs h; cases h; exact .nil
  | cons o obs ih =>
    intro rs h
    unfold rebinAll at h
    obtain ⟨r, h1, h⟩ := Res.bind_eq_ok.1 h
    obtain ⟨rs', h2, h⟩ := Res.bind_eq_ok.1 h
    cases h
    exact .cons h1 (ih h2)

theorem forall₂_exists {α β γ : Type} {R : α → β → Prop} {S : α → γ → β → Prop} : ∀ {l : List α} {m : List β}, List.Forall₂ R l m → (∀ a ∈ l, ∀ b, R a b → ∃ c, S a c b) →
    ∃ n : List γ, List.Forall₂ (fun a c => ∃ b, R a b ∧ S a c b) l n ∧ List.Forall₂ (fun c b => ∃ a ∈ l, R a b ∧ S a c b) n m := by
  intro l
  induction l with
  | nil => intro m h _; cases h; exact ⟨[], .nil, .nil⟩
  | cons a l ih =>
    intro m h hs
    cases h with
    | cons h1 h2 =>
      obtain ⟨c, hc⟩ := hs a (by simp) _ h1
      obtain ⟨n, n1, n2⟩ := ih h2 (fun a ha b hb => hs a (by simp [ha]) b hb)
      refine ⟨c :: n, .cons ⟨_, h1, hc⟩ n1, .cons ⟨a, by simp, h1, hc⟩ (n2.imp ?_)⟩
      rintro c b ⟨a, ha, q⟩
      exact ⟨a, by simp [ha], q⟩

theorem slots_eq {fl : Bool × Bool} {fo : List (TplFit.Obs ℝ)} {rs : List (TplFit.Slot ℝ × ℝ × ℝ)}
    (h : List.Forall₂ (fun (f : TplFit.Obs ℝ) (r : TplFit.Slot ℝ × ℝ × ℝ) => r.1 = f.slot fl.1 fl.2) fo rs) : rs.map (·.1) = fo.map (TplFit.Obs.slot fl.1 fl.2) := by
  induction h with
  | nil => rfl
  | cons e _ ih =>
    simp only [List.map_cons]
    rw [e, ih]

section
variable {ty te : List ℝ} {tp : Tp ℝ} {z : ℝ}

theorem rebinObs_spec (htx : tp.tx.Pairwise (· < ·)) (hty : ty.length = tp.tx.length) (hte : te.length = tp.tx.length) (hpos : ∀ x ∈ tp.tx, 0 < x)
    (hreb : tp.reb = Rebin.linear .no tp.tx ty te) (hz : -1 < z) {o : Input ℝ} (ho : o.Ok z) {thr : ℝ} {fl : Bool × Bool} {r : TplFit.Slot ℝ × ℝ × ℝ}
    (h : rebinObs tp z thr fl o = .ok r) :
    ∃ f : TplFit.Obs ℝ, ObsAt tp.tx ty z o f ∧ f.Ok ∧ r.1 = f.slot fl.1 fl.2 ∧ OverlapOk thr r.2.2 ∧ (∃ hi, ∀ w, Common tp.tx o.sx o.lr z w ↔ r.2.1 ≤ w ∧ w ≤ hi) ∧
      Common tp.tx o.sx o.lr z r.2.1 := by
  have hz' : 0 < 1 + z := by linarith
  unfold rebinObs at h
  rw [hreb] at h
  obtain ⟨q, hq, h⟩ := Res.bind_eq_ok.1 h
  obtain ⟨⟨ks, ke⟩, hk, h⟩ := Res.bind_eq_ok.1 h
  cases h
  obtain ⟨r1, r2, r3, r4, r5, r6, r7, -⟩ := TplModel.C166_rebin htx hty hte hpos ho.sorted hz hq
  have hrl : q.rest.length = o.sx.length := by rw [r1, List.length_map]
  have hrs : q.rest.Pairwise (· < ·) := by
    rw [r1, List.pairwise_map]
    exact ho.sorted.imp fun hab => div_lt_div_of_pos_right hab hz'
  obtain ⟨k1, k2, k3⟩ := (C03_closed q.cur q.rest hrs).1 ks ke hk
  have hin : ∀ (j : Nat) (w : ℝ), q.rest[j]? = some w → ((ks ≤ j ∧ j ≤ ke) ↔ Common tp.tx o.sx o.lr z w) := by
    intro j w hw
    obtain ⟨hj, rfl⟩ := List.getElem?_eq_some_iff.1 hw
    rw [k3 j hj, r4]
  refine ⟨⟨q.rest, q.cells.map (·.flux), o.flux, o.err, o.mask z, ks, ke⟩, ⟨r1, rfl, rfl, rfl, hin, fun j w hw hc => ?_⟩,
    ⟨pairwise_le_of_lt hrs, by simp only [List.length_map]; rw [r2, hrl], by simp only; rw [ho.flux_len, hrl], by simp only; rw [ho.err_len, hrl],
      by simp only; rw [ho.mask_len, hrl], k1, k2, fun j _ _ e he => ho.err_ne e (List.mem_of_getElem? he)⟩, rfl, ⟨r6, r7⟩, ⟨q.cur.e, fun w => ?_⟩, (r4 _).1 ⟨le_rfl, r3⟩⟩
  · obtain ⟨hj, -⟩ := List.getElem?_eq_some_iff.1 hw
    obtain ⟨c, hc'⟩ := Tpl.getElem_some (l := q.cells) (k := j) (by rw [r2, ← hrl]; exact hj)
    obtain ⟨q1, q2, -⟩ := r5 j w c hw hc'
    exact ⟨c.flux, by simp only [List.getElem?_map]; rw [hc']; rfl, (q2 (q1 ((r4 w).2 hc))).2⟩
  · exact (r4 w).symm

/-- The last sample of the fit of each observation is above the range of the IGM: some sample of it is. -/
def AboveIgm (tp : Tp ℝ) (z : ℝ) (o : Input ℝ) : Prop := ∃ l ∈ o.sx, Common tp.tx o.sx o.lr z (l / (1 + z)) ∧ tp.c.igmMax < l / (1 + z)

theorem fitAt_spec {sq : ℝ → ℝ} (hsq : TplFit.IsSqrt sq) {big : ℝ} (htx : tp.tx.Pairwise (· < ·)) (hty : ty.length = tp.tx.length) (hte : te.length = tp.tx.length)
    (hpos : ∀ x ∈ tp.tx, 0 < x) (hreb : tp.reb = Rebin.linear .no tp.tx ty te) (hz : -1 < z) {obs : List (Input ℝ)} (hne : obs ≠ []) (ho : ∀ o ∈ obs, o.Ok z) {a : Ask ℝ}
    {meiksin ebmv : List Int} (hm : IdxOf a.igm tp.nIgm a.igmIdx meiksin) (he : IdxOf a.dust tp.nEbmv a.ebmvIdx ebmv)
    (hlast : a.igm = true → a.igmIdx = -1 → ∀ o ∈ obs, AboveIgm tp z o) {priors : List (TplFit.Prior ℝ)} {fl : Bool × Bool} {r : Row ℝ × (Bool × Bool)}
    (h : fitAt sq big tp a meiksin ebmv obs z priors fl = .ok r) : RowAt sq ty tp a obs z priors r.1 := by
  unfold fitAt at h
  obtain ⟨rs, h1, h⟩ := Res.bind_eq_ok.1 h
  obtain ⟨q, h2, h⟩ := Res.bind_eq_ok.1 h
  cases hb : q.best with
  | none => rw [hb] at h; cases h
  | some b =>
    rw [hb] at h
    cases h
    have hF := rebinAll_forall h1
    obtain ⟨fo, f1, f2⟩ := forall₂_exists (S := fun o (f : TplFit.Obs ℝ) r => ObsAt tp.tx ty z o f ∧ f.Ok ∧ r.1 = f.slot fl.1 fl.2 ∧ OverlapOk a.ovThr r.2.2 ∧
      (∃ hi, ∀ w, Common tp.tx o.sx o.lr z w ↔ r.2.1 ≤ w ∧ w ≤ hi) ∧ Common tp.tx o.sx o.lr z r.2.1) hF
      (fun o ho' r hr => rebinObs_spec htx hty hte hpos hreb hz (ho o ho') hr)
    have hslots : rs.map (·.1) = fo.map (TplFit.Obs.slot fl.1 fl.2) := slots_eq (f2.imp (by rintro c b ⟨_, _, _, _, _, e, _⟩; exact e))
    have hobs : ∀ f ∈ fo, f.Ok := by
      intro f hf
      obtain ⟨i, hi, rfl⟩ := List.getElem_of_mem hf
      obtain ⟨hl, hh⟩ := List.forall₂_iff_get.1 f1
      obtain ⟨r, _, _, hok, _⟩ := hh i (by rw [hl]; exact hi) hi
      exact hok
    have hlen : fo.length = obs.length := f1.length_eq.symm
    have hne' : fo ≠ [] := by
      intro hc
      rw [hc] at hlen
      exact hne (List.length_eq_zero_iff.1 hlen.symm)
    rw [hslots] at h2
    have hlast' : 1 < meiksin.length → a.igm = true → TplFit.igmIsInRange (rs.map (·.2.1)) = true → ∀ f ∈ fo, tp.c.igmMax < f.axis[f.kEnd]?.getD 0 := by
      intro m1 m2 _ f hf
      have hidx : a.igmIdx = -1 := by
        by_contra hc
        unfold IdxOf at hm
        rw [if_neg (by simp [m2]), if_pos hc] at hm
        rw [hm] at m1
        simp at m1
      obtain ⟨i, hi, rfl⟩ := List.getElem_of_mem hf
      obtain ⟨hl, hh⟩ := List.forall₂_iff_get.1 f1
      obtain ⟨r, _, hO, hok, _⟩ := hh i (by rw [hl]; exact hi) hi
      simp only [List.get_eq_getElem] at hO hok
      obtain ⟨l, hl', c1, c2⟩ := hlast m2 hidx obs[i] (List.getElem_mem _)
      obtain ⟨j, hj, rfl⟩ := List.getElem_of_mem hl'
      have hax : fo[i].axis[j]? = some (obs[i].sx[j] / (1 + z)) := by
        rw [hO.axis, List.getElem?_map, List.getElem?_eq_getElem hj]; rfl
      have hj2 := (hO.inside j _ hax).2 c1
      have hj1 := (List.getElem?_eq_some_iff.1 hax)
      rw [List.getElem?_eq_getElem hok.lt]
      refine lt_of_lt_of_le c2 ?_
      rw [← hj1.2]
      simp only [Option.getD_some]
      rcases Nat.eq_or_lt_of_le hj2.2 with e | e
      · simp only [e]; exact le_rfl
      · exact List.pairwise_iff_getElem.1 hok.sorted j _ hj1.1 hok.lt e
    have hT := TplFit.C65_fit_partial hsq hne' hobs hlast' h2
    refine ⟨_, fo, q, b, ⟨rfl, rfl, rfl, rfl, ?_, rfl, hm, he, ?_, rfl⟩, f1.imp ?_, hT, hb, rfl, rfl, rfl, rfl, rfl, rfl, rfl, rfl, rfl, rfl, rfl, ?_, ?_⟩
    · show (a.igm && TplFit.igmIsInRange (rs.map (·.2.1))) = true ↔ _
      rw [Bool.and_eq_true, TplFit.C65_igm_range]
      refine and_congr_right fun _ => ?_
      constructor
      · rintro ⟨lo, hlo, hle⟩
        obtain ⟨r, hr, rfl⟩ := List.mem_map.1 hlo
        obtain ⟨i, hi, rfl⟩ := List.getElem_of_mem hr
        obtain ⟨hl, hh⟩ := List.forall₂_iff_get.1 f2
        obtain ⟨o, ho', _, _, _, _, _, _, hc⟩ := hh i (by rw [hl]; exact hi) hi
        exact ⟨o, ho', _, hc, hle⟩
      · rintro ⟨o, ho', w, hc, hw⟩
        obtain ⟨i, hi, rfl⟩ := List.getElem_of_mem ho'
        obtain ⟨hl, hh⟩ := List.forall₂_iff_get.1 hF
        obtain ⟨f, _, _, _, _, ⟨hi', hw'⟩, _⟩ := rebinObs_spec htx hty hte hpos hreb hz (ho _ ho') (hh i hi (by rw [← hl]; exact hi))
        exact ⟨_, List.mem_map.2 ⟨_, List.getElem_mem _, rfl⟩, le_trans ((hw' w).1 hc).1 hw⟩
    · show (decide (priors ≠ []) && tp.hasDust && decide (priors.length = tp.nEbmv)) = true ↔ _
      simp [and_assoc]
    · rintro o f ⟨r, _, hO, _⟩
      exact hO
    · show (rs.map (·.2.2)).length = obs.length
      rw [List.length_map, ← hF.length_eq]
    · intro ov hov
      have hov : ov ∈ rs.map (·.2.2) := hov
      obtain ⟨r, hr, rfl⟩ := List.mem_map.1 hov
      obtain ⟨i, hi, rfl⟩ := List.getElem_of_mem hr
      obtain ⟨hl, hh⟩ := List.forall₂_iff_get.1 f2
      obtain ⟨o, ho', _, _, _, _, hc, _⟩ := hh i (by rw [hl]; exact hi) hi
      exact hc

/-- The row at the place of each redshift. -/
theorem fitAll_get {sq : ℝ → ℝ} {big : ℝ} {tp : Tp ℝ} {a : Ask ℝ} {meiksin ebmv : List Int} {obs : List (Input ℝ)} : ∀ {ps : List (ℝ × List (TplFit.Prior ℝ))} {fl : Bool × Bool}
    {rows : List (Row ℝ)}, fitAll sq big tp a meiksin ebmv obs ps fl = .ok rows → List.Forall₂ (fun p row => ∃ fl fl', fitAt sq big tp a meiksin ebmv obs p.1 p.2 fl = .ok (row, fl')) ps rows := by
  intro ps
  induction ps with
  | nil => intro fl rows h; cases h; exact .nil
  | cons p ps ih =>
    intro fl rows h
    unfold fitAll at h
    obtain ⟨r, h1, h⟩ := Res.bind_eq_ok.1 h
    obtain ⟨rs, h2, h⟩ := Res.bind_eq_ok.1 h
    cases h
    exact .cons ⟨fl, r.2, h1⟩ (ih h2)

theorem idxList_ok {on has : Bool} {count : Nat} {idx : Int} {l : List Int} (h : TplComb.idxList on has count idx = .ok l) : IdxOf on count idx l := by
  unfold TplComb.idxList at h
  unfold IdxOf
  split at h
  · cases h
  · split at h
    · rename_i h1
      cases h
      rw [if_pos h1]
    · rename_i h1
      rw [if_neg h1]
      split at h
      · rename_i h2
        cases h
        rw [if_pos h2]
      · rename_i h2
        cases h
        rw [if_neg h2]

theorem cstLog_ok {lg : ℝ → ℝ} {l2pi : ℝ} : ∀ {obs : List (Input ℝ)} {c : ℝ}, (∀ o ∈ obs, o.sx.Pairwise (· < ·)) → cstLog lg l2pi obs = .ok c →
    ∃ cs : List ℝ, List.Forall₂ (fun o c => TplComb.IsCst lg l2pi o.sx o.err o.lr c) obs cs ∧ c = cs.sum := by
  intro obs
  induction obs with
  | nil => intro c _ h; cases h; exact ⟨[], .nil, by simp⟩
  | cons o obs ih =>
    intro c hs h
    unfold cstLog at h
    obtain ⟨c1, h1, h⟩ := Res.bind_eq_ok.1 h
    obtain ⟨c2, h2, h⟩ := Res.bind_eq_ok.1 h
    cases h
    obtain ⟨cs, d1, d2⟩ := ih (fun o ho => hs o (by simp [ho])) h2
    exact ⟨c1 :: cs, .cons (TplComb.cstLog_spec (hs o (by simp)) h1) d1, by rw [List.sum_cons, d2]⟩

/-- **C167** Whenever the fit of a template over a list of redshifts returns, it has one row for each redshift, in the order of the redshifts, and each is the best of the
least squares fits at that redshift of the template interpolated on the samples in common, with the priors of that redshift, whatever was fitted before; every overlap is at
least the threshold. The likelihood constant is the sum over the observations. With several IGM curves some sample of the fit of each observation must be above the IGM
range (see C65). -/
theorem C167_compute_partial {sq : ℝ → ℝ} (hsq : TplFit.IsSqrt sq) {big : ℝ} (htx : tp.tx.Pairwise (· < ·)) (hty : ty.length = tp.tx.length) (hte : te.length = tp.tx.length)
    (hpos : ∀ x ∈ tp.tx, 0 < x) (hreb : tp.reb = Rebin.linear .no tp.tx ty te) {zs : List ℝ} (hz : ∀ z ∈ zs, -1 < z) {obs : List (Input ℝ)} (hne : obs ≠ [])
    (ho : ∀ z ∈ zs, ∀ o ∈ obs, o.Ok z) {a : Ask ℝ} (hlast : a.igm = true → a.igmIdx = -1 → ∀ z ∈ zs, ∀ o ∈ obs, AboveIgm tp z o)
    {priors : List (List (TplFit.Prior ℝ))} {fl : Bool × Bool} {lg : ℝ → ℝ} {l2pi : ℝ} {rows : List (Row ℝ)} {c : ℝ}
    (h : compute sq big lg l2pi tp a priors obs zs fl = .ok (rows, c)) :
    zs ≠ [] ∧ rows.length = zs.length ∧
    (∀ (i : Nat) (z : ℝ), zs[i]? = some z → ∃ row, rows[i]? = some row ∧ RowAt sq ty tp a obs z (priors[i]?.getD []) row) ∧
    ∃ cs : List ℝ, List.Forall₂ (fun o c => TplComb.IsCst lg l2pi o.sx o.err o.lr c) obs cs ∧ c = cs.sum := by
  unfold compute at h
  split at h
  · cases h
  split at h
  · cases h
  split at h
  · cases h
  obtain ⟨meiksin, h1, h⟩ := Res.bind_eq_ok.1 h
  obtain ⟨ebmv, h2, h⟩ := Res.bind_eq_ok.1 h
  split at h
  · cases h
  rename_i hpr
  obtain ⟨rows', h3, h⟩ := Res.bind_eq_ok.1 h
  split at h
  · cases h
  rename_i hzs
  obtain ⟨c', h4, h⟩ := Res.bind_eq_ok.1 h
  cases h
  have hF := fitAll_get h3
  have hw : (withPriors priors zs).length = zs.length ∧ ∀ (i : Nat) (z : ℝ), zs[i]? = some z → (withPriors priors zs)[i]? = some (z, priors[i]?.getD []) := by
    unfold withPriors
    by_cases hp : priors = []
    · rw [if_pos hp]
      refine ⟨by simp, fun i z hz => ?_⟩
      rw [List.getElem?_map, hz, hp]; rfl
    · rw [if_neg hp]
      have hl : priors.length = zs.length := by
        by_contra hc
        exact hpr ⟨hp, hc⟩
      refine ⟨by simp [hl], fun i z hz => ?_⟩
      have hi := (List.getElem?_eq_some_iff.1 hz).1
      have hp := List.getElem?_eq_getElem (l := priors) (i := i) (by rw [hl]; exact hi)
      rw [hp]
      exact List.getElem?_zip_eq_some.2 ⟨hz, hp⟩
  refine ⟨hzs, by rw [← hF.length_eq, hw.1], fun i z hzi => ?_, cstLog_ok (fun o ho' => ?_) h4⟩
  · obtain ⟨hi, rfl⟩ := List.getElem?_eq_some_iff.1 hzi
    have hmem : zs[i] ∈ zs := List.getElem_mem hi
    have hp := hw.2 i _ hzi
    obtain ⟨hi', hp'⟩ := List.getElem?_eq_some_iff.1 hp
    obtain ⟨hl, hh⟩ := List.forall₂_iff_get.1 hF
    obtain ⟨f1, f2, hf⟩ := hh i hi' (by rw [← hl]; exact hi')
    simp only [List.get_eq_getElem] at hf
    rw [hp'] at hf
    exact ⟨_, List.getElem?_eq_getElem (by rw [← hl]; exact hi'), fitAt_spec hsq htx hty hte hpos hreb (hz _ hmem) hne (ho _ hmem) (idxList_ok h1) (idxList_ok h2)
      (fun q1 q2 => hlast q1 q2 _ hmem) hf⟩
  · cases zs with
    | nil => exact absurd rfl hzs
    | cons z zs => exact (ho z (by simp) o ho').sorted

/-- **C167** What the fit refuses before any computation. -/
theorem C167_refuses (sq : ℝ → ℝ) (big : ℝ) (lg : ℝ → ℝ) (l2pi : ℝ) (tp : Tp ℝ) (a : Ask ℝ) (priors : List (List (TplFit.Prior ℝ))) (obs : List (Input ℝ)) (zs : List ℝ) (fl : Bool × Bool)
    (h : (a.dust = true ∧ (tp.hasDust = false ∨ (tp.nEbmv : Int) ≤ a.ebmvIdx)) ∨ (a.igm = true ∧ tp.hasIgm = false) ∨ (priors ≠ [] ∧ priors.length ≠ zs.length)) :
    compute sq big lg l2pi tp a priors obs zs fl = .throw .INTERNAL_ERROR := by
  unfold compute
  by_cases h1 : a.dust = true ∧ tp.hasDust = false
  · rw [if_pos h1]
  rw [if_neg h1]
  by_cases h2 : a.dust = true ∧ (tp.nEbmv : Int) ≤ a.ebmvIdx
  · rw [if_pos h2]
  rw [if_neg h2]
  by_cases h3 : a.igm = true ∧ tp.hasIgm = false
  · rw [if_pos h3]
  rw [if_neg h3]
  have h4 : priors ≠ [] ∧ priors.length ≠ zs.length := by
    rcases h with ⟨q, q1 | q1⟩ | q | q
    · exact absurd ⟨q, q1⟩ h1
    · exact absurd ⟨q, q1⟩ h2
    · exact absurd q h3
    · exact q
  have i1 : ∃ l, TplComb.idxList a.igm tp.hasIgm tp.nIgm a.igmIdx = .ok l := by
    unfold TplComb.idxList
    rw [if_neg (fun hh => h3 ⟨hh.2, hh.1⟩)]
    split
    · exact ⟨_, rfl⟩
    · split <;> exact ⟨_, rfl⟩
  have i2 : ∃ l, TplComb.idxList a.dust tp.hasDust tp.nEbmv a.ebmvIdx = .ok l := by
    unfold TplComb.idxList
    rw [if_neg (fun hh => h1 ⟨hh.2, hh.1⟩)]
    split
    · exact ⟨_, rfl⟩
    · split <;> exact ⟨_, rfl⟩
  obtain ⟨l1, e1⟩ := i1
  obtain ⟨l2, e2⟩ := i2
  rw [e1, Res.bind_ok, e2, Res.bind_ok, if_pos h4]

end

/-! ## A case: the template and the observation of the case of C166, without extinction, at the redshift 1 -/

noncomputable def exTp : Tp ℝ := ⟨[1, 2, 4], Rebin.linear .no [1, 2, 4] [1, 1, 3] [1, 1, 1], TplModel.exExt.c, fun k => k, true, 1, false, 0⟩
def exIn : Input ℝ := ⟨[2, 4, 6], [1, 2, 3], [1, 1, 1], ⟨2, 5⟩, fun _ => [1, 1, 1]⟩
noncomputable def exAsk : Ask ℝ := ⟨false, false, -1, -1, 1 / 2, 0⟩

theorem ex_closed : Range.closedIdx (⟨1, 5 / 2⟩ : Range ℝ) [1, 2, 3] = .ok (0, 1) := by
  obtain ⟨h1, h2, -⟩ := C03_closed (⟨1, 5 / 2⟩ : Range ℝ) [1, 2, 3] (by norm_num)
  obtain ⟨⟨i, j⟩, hij⟩ := h2.2 ⟨1, by simp, by unfold Range.Mem; norm_num⟩
  obtain ⟨a, b, c⟩ := h1 i j hij
  have c0 := (c 0 (by simp)).2 (by unfold Range.Mem; norm_num)
  have c1 := (c 1 (by simp)).2 (by unfold Range.Mem; norm_num)
  have c2 := (c 2 (by simp)).not.2 (by unfold Range.Mem; norm_num)
  simp at b
  have : i = 0 ∧ j = 1 := by omega
  rw [hij, this.1, this.2]

theorem ex_closed2 : Range.closedIdx (⟨2, 5⟩ : Range ℝ) [2, 4, 6] = .ok (0, 1) := by
  obtain ⟨h1, h2, -⟩ := C03_closed (⟨2, 5⟩ : Range ℝ) [2, 4, 6] (by norm_num)
  obtain ⟨⟨i, j⟩, hij⟩ := h2.2 ⟨2, by simp, by unfold Range.Mem; norm_num⟩
  obtain ⟨a, b, c⟩ := h1 i j hij
  have c0 := (c 0 (by simp)).2 (by unfold Range.Mem; norm_num)
  have c1 := (c 1 (by simp)).2 (by unfold Range.Mem; norm_num)
  have c2 := (c 2 (by simp)).not.2 (by unfold Range.Mem; norm_num)
  simp at b
  have : i = 0 ∧ j = 1 := by omega
  rw [hij, this.1, this.2]

/-- The hypotheses are met and the call returns. -/
theorem ex_compute : (∀ z ∈ ([1] : List ℝ), ∀ o ∈ [exIn], o.Ok z) ∧
    ∃ rows c, compute Real.sqrt 1000 Real.log (Real.log (2 * Real.pi)) exTp exAsk [] [exIn] [1] (false, false) = .ok (rows, c) := by
  refine ⟨?_, ?_⟩
  · intro z _ o ho
    rw [List.mem_singleton] at ho
    subst ho
    exact ⟨by norm_num [exIn], by simp [exIn], by simp [exIn], by simp [exIn], by norm_num [exIn]⟩
  · let o : TplFit.Obs ℝ := ⟨[1, 2, 3], [1, 1, 2], [1, 2, 3], [1, 1, 1], [1, 1, 1], 0, 1⟩
    have hr : rebinAll exTp 1 exAsk.ovThr (false, false) [exIn] = .ok [(o.slot false false, 1, 1)] := by
      unfold rebinAll rebinAll rebinObs
      simp only [exTp, exIn, exAsk]
      rw [TplModel.ex_rebin, Res.bind_ok]
      simp only []
      rw [ex_closed, Res.bind_ok, Res.bind_ok, Res.bind_ok]
      rfl
    have hok : o.Ok := ⟨by norm_num [o], by simp [o], by simp [o], by simp [o], by simp [o], by simp [o], by simp [o], by
      intro j _ _ e he
      have : e ∈ o.err := List.mem_of_getElem? he
      have : e = 1 := by simpa [o] using this
      rw [this]; norm_num⟩
    obtain ⟨r, h1, h2⟩ := TplFit.C65_total_partial (sq := Real.sqrt) TplFit.isSqrt_real (big := 1000) (c := exTp.c) (z := 1) (ebmvValue := exTp.ebmvValue) (hasDust := true)
      (hasIgm := false) (nEbmv := 1) (thr := 0) (optIgm := false) (optDust := false) (priors := []) (meiksin := [-1]) (ebmv := [-1]) (los := [1]) (obs := [o]) (by simp)
      (by intro x hx; rw [List.mem_singleton] at hx; subst hx; exact hok) (by simp) (by simp)
      ⟨by simp [TplFit.theOpt], by simp [TplFit.theOpt], by simp [TplFit.theOpt], by simp [TplFit.theOpt], by simp, by simp [TplFit.theOpt], by
        intro x hx k hk i hi
        rw [List.mem_singleton] at hx
        subst hx
        have : k = -1 := by simpa [TplFit.theOpt] using hk
        subst this
        have : i = -1 := by simpa [TplFit.theOpt] using hi
        subst this
        refine ⟨⟨1, 1, 1⟩, ?_, by norm_num⟩
        norm_num [TplFit.Obs.all, TplFit.Obs.samples, o, TplFit.dustFun, TplFit.igmFun, TplFit.theOpt, List.range']⟩ (by simp)
    obtain ⟨b, hb⟩ : ∃ b, r.best = some b := by
      obtain ⟨_, _, _, _, _, m, _, _, _, hm, _⟩ := h2.best
      exact ⟨m, hm⟩
    have hc : ∃ c, cstLog Real.log (Real.log (2 * Real.pi)) [exIn] = .ok c := by
      unfold cstLog cstLog TplComb.cstLog
      simp only [exIn]
      rw [ex_closed2, Res.bind_ok]
      norm_num [TplComb.sumLog, Res.at_, Res.bind_ok]
    obtain ⟨c, hc⟩ := hc
    refine ⟨[rowOf Real.sqrt [1] r.tbl b], c, ?_⟩
    unfold compute
    rw [if_neg (by simp [exAsk]), if_neg (by simp [exAsk]), if_neg (by simp [exAsk])]
    have i1 : TplComb.idxList exAsk.igm exTp.hasIgm exTp.nIgm exAsk.igmIdx = .ok [-1] := by rfl
    have i2 : TplComb.idxList exAsk.dust exTp.hasDust exTp.nEbmv exAsk.ebmvIdx = .ok [-1] := by rfl
    rw [i1, Res.bind_ok, i2, Res.bind_ok, if_neg (by simp)]
    have hw : withPriors ([] : List (List (TplFit.Prior ℝ))) [1] = [(1, [])] := by simp [withPriors]
    rw [hw]
    unfold fitAll fitAll fitAt
    simp only []
    rw [hr, Res.bind_ok]
    have h1' : TplFit.basicFit Real.sqrt 1000 exTp.c 1 exTp.ebmvValue exTp.hasDust exTp.nEbmv exTp.hasIgm exAsk.ampThr exAsk.igm exAsk.dust [] [-1] [-1]
        (List.map (fun x : TplFit.Slot ℝ × ℝ × ℝ => x.2.1) [(o.slot false false, 1, 1)]) (List.map (fun x : TplFit.Slot ℝ × ℝ × ℝ => x.1) [(o.slot false false, 1, 1)]) = .ok r := h1
    rw [h1', Res.bind_ok, hb]
    simp only [Res.bind_ok]
    rw [if_neg (by simp), hc, Res.bind_ok]
    rfl

end TplCompute
end Amazed
