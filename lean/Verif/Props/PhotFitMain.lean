import Verif.Props.PhotFitBands

set_option linter.unusedVariables false
set_option linter.unusedSectionVars false

/-! # C169: the fit of a template with photometry at one redshift -/

namespace Amazed
namespace PhotFit

open TplModel (Common)
open TplCompute (Input Tp Ask ObsAt)

/-! ## Specification -/

/-- The flux in a band of the template `tx`, `ty` at `z` with the dust `d` and the IGM `g`: the flux integrated by the band of the interpolated template with its extinctions. -/
def BandFlux (tx ty : List ℝ) (z light : ℝ) (d g : ℝ → ℝ) (band : Phot.Band ℝ) (m : ℝ) : Prop :=
  ∃ fs : List ℝ, List.Forall₂ (fun l f => ∃ y, OnPolyline tx ty (l / (1 + z)) y ∧ f = y * d (l / (1 + z)) * g (l / (1 + z))) band.lambda fs ∧ band.integrate light fs = .ok m

/-- The sample of a band in the fit: the weight divides the error. -/
noncomputable def sample (w : ℝ) (p : Phot.Point ℝ) (m : ℝ) : TplFit.Sample ℝ := ⟨p.flux, m, p.err / w⟩

/-- The row of a dust index: the least squares fit of the samples of the spectrum and of the bands together; its photometric chi2 is that of the bands. -/
def RowSpec (op : TplFit.Opt ℝ) (light w : ℝ) (tx ty : List ℝ) (z : ℝ) (f : TplFit.Obs ℝ) (bands : List (String × Phot.Band ℝ)) (data : Phot.Data ℝ) (mi k : Int) (row : Row ℝ) : Prop :=
  row.k = k ∧ ∃ (ps : List (Phot.Point ℝ)) (ms : List ℝ) (a0 : ℝ), List.Forall₂ (fun nb p => LineCat.mapFind nb.1 data = some p) bands ps ∧
    List.Forall₂ (fun nb m => BandFlux tx ty z light (TplFit.dustFun op k) (TplFit.igmFun op mi) nb.2 m) bands ms ∧
    TplFit.FitSpec op.thr (TplFit.priorOf op k) (f.all (TplFit.dustFun op k) (TplFit.igmFun op mi) ++ List.zipWith (sample w) ps ms) row.fit a0 ∧
    row.phot = TplFit.chi2 (List.zipWith (sample w) ps ms) row.fit.ampl

/-- The options of the fit: the IGM is fitted when it is asked for and some rest wavelength of the fit or of a band is at most 1216; the priors are used when there is one for
each dust coefficient. -/
structure OptSpec (tp : Tp ℝ) (a : Ask ℝ) (o : Input ℝ) (bands : List (String × Phot.Band ℝ)) (z : ℝ) (priors : List (TplFit.Prior ℝ)) (op : TplFit.Opt ℝ) : Prop where
  c : op.c = tp.c
  redshift : op.z = z
  dust : op.dust = a.dust
  igm : op.igm = true ↔ a.igm = true ∧ ((∃ w, Common tp.tx o.sx o.lr z w ∧ w ≤ 1216) ∨ ∃ nb ∈ bands, ∃ l ∈ nb.2.lambda, l / (1 + z) ≤ 1216)
  thr : op.thr = a.ampThr
  applyPrior : op.applyPrior = true ↔ priors ≠ [] ∧ tp.hasDust = true ∧ priors.length = tp.nEbmv
  priors : op.priors = priors

/-! ## Proofs -/

/-- **C169, constructor.** More than one spectrum is refused, then the bands without a transmission or without data. -/
theorem C169_new (n : Nat) (cat : Option (Phot.Cat ℝ)) (data : Option (Phot.Data ℝ)) :
    (1 < n → new n cat data = .throw .MULTIOBS_WITH_PHOTOMETRY_NOTIMPLEMENTED) ∧
    (n ≤ 1 → (cat = none ∨ cat = some []) → new n cat data = .throw .MISSING_PHOTOMETRIC_TRANSMISSION) ∧
    (∀ c, n ≤ 1 → cat = some c → c ≠ [] → (new n cat data = .ok () ↔ ∃ d, data = some d ∧ ∀ nb ∈ c, ∃ p, (nb.1, p) ∈ d) ∧
      (new n cat data ≠ .ok () → new n cat data = .throw .MISSING_PHOTOMETRIC_DATA)) := by
  refine ⟨fun h => by unfold new; rw [if_pos h], fun h hc => ?_, fun c h hc hne => ?_⟩
  · unfold new
    rw [if_neg (by omega), Phot.C90_checks, if_pos hc]
  · unfold new
    rw [if_neg (by omega), Phot.C90_checks, if_neg (by rw [hc]; simp [hne])]
    have e : (∃ d, data = some d ∧ ∀ c, cat = some c → ∀ n ∈ c.map (·.1), n ∈ d.map (·.1)) ↔ ∃ d, data = some d ∧ ∀ nb ∈ c, ∃ p, (nb.1, p) ∈ d := by
      constructor
      · rintro ⟨d, h1, h2⟩
        refine ⟨d, h1, fun nb hnb => ?_⟩
        have := h2 c hc nb.1 (List.mem_map.2 ⟨nb, hnb, rfl⟩)
        obtain ⟨x, hx, e⟩ := List.mem_map.1 this
        exact ⟨x.2, by rw [← e]; exact hx⟩
      · rintro ⟨d, h1, h2⟩
        refine ⟨d, h1, fun c' hc' n hn => ?_⟩
        rw [hc] at hc'
        cases hc'
        obtain ⟨nb, hnb, rfl⟩ := List.mem_map.1 hn
        obtain ⟨p, hp⟩ := h2 nb hnb
        exact List.mem_map.2 ⟨_, hp, rfl⟩
    by_cases hh : ∃ d, data = some d ∧ ∀ c, cat = some c → ∀ n ∈ c.map (·.1), n ∈ d.map (·.1)
    · rw [if_pos hh]
      exact ⟨⟨fun _ => e.1 hh, fun _ => rfl⟩, fun hn => absurd rfl hn⟩
    · rw [if_neg hh]
      exact ⟨⟨fun hn => (by cases hn), fun hn => absurd (e.2 hn) hh⟩, fun _ => rfl⟩

/-- A band as an observation. -/
def bandObs (axis base : List ℝ) : TplFit.Obs ℝ := ⟨axis, base, axis.map fun _ => 1, axis.map fun _ => 1, axis.map fun _ => 1, 0, axis.length - 1⟩

def asSlot (f : TplFit.Obs ℝ) (t : Tpl.T ℝ) : TplFit.Slot ℝ := ⟨f.flux, f.err, f.mask, f.kStart, f.kEnd, t, []⟩

/-- The template of a band with the extinctions `kd` and `i`. -/
def BandRel (op : TplFit.Opt ℝ) (tx ty : List ℝ) (z : ℝ) (data : Phot.Data ℝ) (hd hi : Bool) (kd i : Int) (nb : String × Phot.Band ℝ) (b : Phot.Slot ℝ) : Prop :=
  b.band = nb.2 ∧ LineCat.mapFind nb.1 data = some b.data ∧ 2 ≤ nb.2.lambda.length ∧ nb.2.lambda.Pairwise (· < ·) ∧
  ∃ base : List ℝ, base.length = nb.2.lambda.length ∧
    (∀ (j : Nat) (l : ℝ), nb.2.lambda[j]? = some l → ∃ y, base[j]? = some y ∧ OnPolyline tx ty (l / (1 + z)) y) ∧
    TplFit.Rel op hd hi (bandObs (nb.2.lambda.map (· / (1 + z))) base) kd i (asSlot (bandObs (nb.2.lambda.map (· / (1 + z))) base) b.t)

theorem bandObs_ok {lambda base : List ℝ} {z : ℝ} (hz : -1 < z) (h2 : 2 ≤ lambda.length) (hl : lambda.Pairwise (· < ·)) (hb : base.length = lambda.length) :
    (bandObs (lambda.map (· / (1 + z))) base).Ok := by
  have hz' : 0 < 1 + z := by linarith
  refine ⟨?_, ?_, ?_, ?_, ?_, ?_, ?_, ?_⟩
  · show (lambda.map (· / (1 + z))).Pairwise (· ≤ ·)
    rw [List.pairwise_map]
    exact hl.imp fun hab => div_le_div_of_nonneg_right hab.le hz'.le
  · simp [bandObs, hb]
  · simp [bandObs]
  · simp [bandObs]
  · simp [bandObs]
  · simp [bandObs]
  · show (lambda.map (· / (1 + z))).length - 1 < (lambda.map (· / (1 + z))).length
    rw [List.length_map]; omega
  · intro j _ _ e he
    have : e = 1 := by
      have := List.mem_of_getElem? he
      obtain ⟨_, _, rfl⟩ := List.mem_map.1 this
      rfl
    rw [this]; norm_num

theorem onBands_forall {α : Type} {f : Tpl.T ℝ → Tpl.T ℝ × Res Bool} {R R' : α → Phot.Slot ℝ → Prop}
    (hf : ∀ a b x, R a b → (f b.t).2 = .ok x → R' a { b with t := (f b.t).1 }) : ∀ {l : List α} {bs bs' : List (Phot.Slot ℝ)}, List.Forall₂ R l bs → onBands f bs = .ok bs' →
    List.Forall₂ R' l bs' := by
  intro l
  induction l with
  | nil => intro bs bs' h hb; cases h; cases hb; exact .nil
  | cons a l ih =>
    intro bs bs' h hb
    cases h with
    | cons h1 h2 =>
      unfold onBands at hb
      obtain ⟨x, e1, hb⟩ := Res.bind_eq_ok.1 hb
      obtain ⟨y, e2, hb⟩ := Res.bind_eq_ok.1 hb
      cases hb
      exact .cons (hf _ _ _ h1 e1) (ih h2 e2)

section
variable {tx ty te : List ℝ} {z : ℝ}

/-- A band before the extinctions. -/
def BandStart (tx ty : List ℝ) (z : ℝ) (data : Phot.Data ℝ) (fl : Bool × Bool) (nb : String × Phot.Band ℝ) (b : Phot.Slot ℝ) : Prop :=
  b.band = nb.2 ∧ LineCat.mapFind nb.1 data = some b.data ∧ 2 ≤ nb.2.lambda.length ∧ nb.2.lambda.Pairwise (· < ·) ∧
  ∃ base : List ℝ, base.length = nb.2.lambda.length ∧
    (∀ (j : Nat) (l : ℝ), nb.2.lambda[j]? = some l → ∃ y, base[j]? = some y ∧ OnPolyline tx ty (l / (1 + z)) y) ∧
    b.t = Tpl.make (nb.2.lambda.map (· / (1 + z))) base fl.1 fl.2

theorem bandSlots_start (htx : tx.Pairwise (· < ·)) (hne : tx ≠ []) (hty : ty.length = tx.length) (hte : te.length = tx.length) (hpos : ∀ x ∈ tx, 0 < x) (hz : -1 < z)
    {data : Phot.Data ℝ} {fl : Bool × Bool} : ∀ {bands : List (String × Phot.Band ℝ)} {bs : List (Phot.Slot ℝ)}, (∀ nb ∈ bands, nb.2.lambda.Pairwise (· < ·)) →
    bandSlots (Rebin.linear .no tx ty te) z data fl bands = .ok bs → List.Forall₂ (BandStart tx ty z data fl) bands bs := by
  intro bands
  induction bands with
  | nil => intro bs _ h; cases h; exact .nil
  | cons nb l ih =>
    intro bs hl h
    unfold bandSlots at h
    obtain ⟨s, h1, h⟩ := Res.bind_eq_ok.1 h
    obtain ⟨ss, h2, h⟩ := Res.bind_eq_ok.1 h
    cases h
    refine .cons ?_ (ih (fun nb hnb => hl nb (by simp [hnb])) h2)
    unfold bandSlot at h1
    obtain ⟨r, e1, h1⟩ := Res.bind_eq_ok.1 h1
    obtain ⟨p, e2, h1⟩ := Res.bind_eq_ok.1 h1
    cases h1
    have hs := hl nb (by simp)
    obtain ⟨c1, c2⟩ := C169_bands (ty := ty) (te := te) htx hne hty hte hpos hz hs
    by_cases hc : Covers tx z nb.2.lambda
    · obtain ⟨cells, d1, d2, d3⟩ := c1 hc
      rw [d1] at e1
      cases e1
      refine ⟨rfl, ?_, hc.1, hs, cells.map (·.flux), by rw [List.length_map, d2], fun j l hj => ?_, rfl⟩
      · unfold point at e2
        split at e2
        · cases e2
        · rename_i q hq; cases e2; exact hq
      · obtain ⟨c, hc'⟩ := Tpl.getElem_some (l := cells) (k := j) (by rw [d2]; exact (List.getElem?_eq_some_iff.1 hj).1)
        exact ⟨c.flux, by rw [List.getElem?_map, hc']; rfl, d3 j l c hj hc'⟩
    · rw [c2 hc] at e1
      cases e1

theorem BandStart.off {op : TplFit.Opt ℝ} (hact : ¬ (op.dust = true ∨ op.igm = true)) {data : Phot.Data ℝ} {fl : Bool × Bool} {nb : String × Phot.Band ℝ} {b : Phot.Slot ℝ}
    (h : BandStart tx ty z data fl nb b) : BandRel op tx ty z data fl.1 fl.2 (-1) (-1) nb b := by
  obtain ⟨h1, h2, h3, h4, base, h5, h6, h7⟩ := h
  refine ⟨h1, h2, h3, h4, base, h5, h6, rfl, rfl, rfl, rfl, rfl, ?_, fun _ => rfl, fun _ => rfl, fun _ hx => by omega⟩
  rw [if_neg hact, show (asSlot (bandObs (nb.2.lambda.map (· / (1 + z))) base) b.t).t = b.t from rfl, h7]
  exact Tpl.inv_make op.c (nb.2.lambda.map (· / (1 + z))) base fl.1 fl.2 (by rw [h5, List.length_map])

theorem BandStart.init (hz : -1 < z) {op : TplFit.Opt ℝ} (hact : op.dust = true ∨ op.igm = true) {data : Phot.Data ℝ} {fl : Bool × Bool} {hd hi : Bool} {nb : String × Phot.Band ℝ}
    {b : Phot.Slot ℝ} (h : BandStart tx ty z data fl nb b) {x : Bool} (hx : (bandInit op hd hi b.t).2 = .ok x) :
    BandRel op tx ty z data (fl.1 || hd) (fl.2 || hi) (-1) (-1) nb { b with t := (bandInit op hd hi b.t).1 } := by
  obtain ⟨h1, h2, h3, h4, base, h5, h6, h7⟩ := h
  refine ⟨h1, h2, h3, h4, base, h5, h6, ?_⟩
  have hok := bandObs_ok (base := base) hz h3 h4 h5
  refine TplFit.initSlot_inv (hd0 := fl.1) (hi0 := fl.2) (hd := hd) (hi := hi) (u := ()) hok hact ?_
  have hlen : (((nb.2.lambda.map (· / (1 + z))).length - 1 : Nat) : Int) = (((nb.2.lambda.map (· / (1 + z))).length : Int) - 1) := by
    rw [List.length_map]; omega
  unfold bandInit at hx ⊢
  rw [h7] at hx ⊢
  simp only at hx ⊢
  obtain ⟨u, e1, _⟩ := Res.bind_eq_ok.1 hx
  unfold TplFit.initSlot
  simp only [TplFit.Obs.slot, bandObs, asSlot, hlen, Nat.cast_zero]
  exact Res.bind_eq_ok.2 ⟨u, e1, rfl⟩

theorem BandRel.igm (hz : -1 < z) {op : TplFit.Opt ℝ} (hop : op.igm = true) {data : Phot.Data ℝ} {hd hi : Bool} {kd i k : Int} {nb : String × Phot.Band ℝ} {b : Phot.Slot ℝ}
    (h : BandRel op tx ty z data hd hi kd i nb b) {x : Bool} (hx : (Tpl.applyIgm op.c b.t k).2 = .ok x) :
    BandRel op tx ty z data hd hi kd k nb { b with t := (Tpl.applyIgm op.c b.t k).1 } := by
  obtain ⟨h1, h2, h3, h4, base, h5, h6, h7⟩ := h
  refine ⟨h1, h2, h3, h4, base, h5, h6, ?_⟩
  refine (h7.igmStep (bandObs_ok hz h3 h4 h5) hop (b := x) ?_).1
  unfold TplFit.igmSlot
  simp only [asSlot, hx]
  rfl

theorem BandRel.dust (hz : -1 < z) {op : TplFit.Opt ℝ} (hop : op.dust = true) {data : Phot.Data ℝ} {hd hi : Bool} {kd i k : Int} {nb : String × Phot.Band ℝ} {b : Phot.Slot ℝ}
    (h : BandRel op tx ty z data hd hi kd i nb b) {x : Bool} (hx : (Tpl.applyDust op.c b.t k).2 = .ok x) :
    BandRel op tx ty z data hd hi k i nb { b with t := (Tpl.applyDust op.c b.t k).1 } := by
  obtain ⟨h1, h2, h3, h4, base, h5, h6, h7⟩ := h
  refine ⟨h1, h2, h3, h4, base, h5, h6, ?_⟩
  refine (h7.dustStep (bandObs_ok hz h3 h4 h5) hop (b := x) ?_).1
  unfold TplFit.dustSlot
  simp only [asSlot, hx]
  rfl

theorem BandRel.flux (hz : -1 < z) {op : TplFit.Opt ℝ} {data : Phot.Data ℝ} {hd hi : Bool} {kd i : Int} {nb : String × Phot.Band ℝ} {b : Phot.Slot ℝ}
    (h : BandRel op tx ty z data hd hi kd i nb b) {light m : ℝ} (hm : b.band.integrate light b.t.flux = .ok m) :
    BandFlux tx ty z light (TplFit.dustFun op kd) (TplFit.igmFun op i) nb.2 m := by
  obtain ⟨h1, h2, h3, h4, base, h5, h6, h7⟩ := h
  have hok := bandObs_ok hz h3 h4 h5
  obtain ⟨-, -, -, -, -, ha⟩ := h7.agree hok
  have hlen : b.t.flux.length = nb.2.lambda.length := by
    have := h7.inv.flen
    simpa [asSlot, bandObs] using this
  refine ⟨b.t.flux, ?_, by rw [← h1]; exact hm⟩
  rw [List.forall₂_iff_get]
  refine ⟨hlen.symm, fun j j1 j2 => ?_⟩
  have e1 : nb.2.lambda[j]? = some nb.2.lambda[j] := List.getElem?_eq_getElem j1
  obtain ⟨y, y1, y2⟩ := h6 j _ e1
  refine ⟨y, y2, ?_⟩
  have hx := ha j (by simp [bandObs]) (by simp only [bandObs, List.length_map]; omega)
  have e2 : (bandObs (nb.2.lambda.map (· / (1 + z))) base).axis[j]? = some (nb.2.lambda[j] / (1 + z)) := by
    show (nb.2.lambda.map (· / (1 + z)))[j]? = _
    rw [List.getElem?_map, e1]; rfl
  have e3 : (bandObs (nb.2.lambda.map (· / (1 + z))) base).base[j]? = some y := y1
  rw [e2, e3] at hx
  have e4 : b.t.flux[j]? = some b.t.flux[j] := List.getElem?_eq_getElem j2
  have hx' : b.t.flux[j]? = _ := hx
  rw [e4] at hx'
  simpa using hx'

end

/-! ### The sums of the bands -/

theorem photCross_ok {light w : ℝ} (hw : w ≠ 0) {bs : List (Phot.Slot ℝ)} (hv : ∀ b ∈ bs, Phot.Valid b.data) {q : TplFit.Sums ℝ} {out : List (TplFit.Sums ℝ)}
    (h : Phot.photCross light w false 0 0 0 bs [] = .ok (q, out)) :
    ∃ ms : List ℝ, List.Forall₂ (fun (b : Phot.Slot ℝ) m => b.band.integrate light b.t.flux = .ok m) bs ms ∧
      q = TplFit.sumsOf (List.zipWith (sample w) (bs.map (·.data)) ms) := by
  unfold Phot.photCross at h
  simp only [Bool.false_eq_true, false_and, if_false] at h
  obtain ⟨a, h1, h⟩ := Res.bind_eq_ok.1 h
  cases h
  have H := TplFit.Res.foldN_inv_ok (f := Phot.photBody light w false 0 bs)
    (P := fun (n : Nat) (a : TplFit.Acc ℝ) => ∃ ms : List ℝ, List.Forall₂ (fun (b : Phot.Slot ℝ) m => b.band.integrate light b.t.flux = .ok m) (bs.take n) ms ∧
      a.sums = TplFit.sumsOf (List.zipWith (sample w) ((bs.take n).map (·.data)) ms)) bs.length 0 _ a
    ⟨[], by simp, by simp [TplFit.sumsOf_nil]⟩
    (by
      intro i u u' _ hi hP hstep
      obtain ⟨ms, m1, m2⟩ := hP
      unfold Phot.photBody at hstep
      simp only [Bool.false_eq_true, false_and, if_false] at hstep
      obtain ⟨b, e1, hstep⟩ := Res.bind_eq_ok.1 hstep
      obtain ⟨s, e2, hstep⟩ := Res.bind_eq_ok.1 hstep
      cases hstep
      have hb := Res.at_eq_ok.1 e1
      have hmem : b ∈ bs := List.mem_of_getElem? hb
      have e2' := e2
      unfold Phot.bandStep at e2'
      obtain ⟨m, e3, _⟩ := Res.bind_eq_ok.1 e2'
      rw [Phot.bandStep_eq light w b u.sums m e3 (hv b hmem)] at e2
      cases e2
      have ht : bs.take (i + 1) = bs.take i ++ [b] := by rw [List.take_add_one, hb]; rfl
      refine ⟨ms ++ [m], ?_, ?_⟩
      · rw [ht]
        exact List.rel_append m1 (.cons e3 .nil)
      · rw [ht, List.map_append, List.zipWith_append (by rw [List.length_map, m1.length_eq]), TplFit.sumsOf_append]
        show u.sums.add _ = _
        rw [m2]
        congr 1
        have he := (hv b hmem).err
        apply Phot.sums_ext <;> simp only [Phot.total, TplFit.sumsOf, List.map_cons, List.map_nil, List.zipWith_cons_cons, List.zipWith_nil_left, List.sum_cons, List.sum_nil, sample] <;>
          field_simp)
    h1
  rw [Nat.zero_add, List.take_length] at H
  exact H

/-! ### The loop over the dust indices -/

section
variable {ty te : List ℝ} {tp : Tp ℝ} {z : ℝ}

theorem dustTurn_spec {sq : ℝ → ℝ} (hsq : TplFit.IsSqrt sq) (hz : -1 < z) {op : TplFit.Opt ℝ} {tx : List ℝ} {data : Phot.Data ℝ} (hv : ∀ n p, LineCat.mapFind n data = some p → Phot.Valid p)
    {light w : ℝ} (hw : w ≠ 0) {f : TplFit.Obs ℝ} (hf : f.Ok) {bands : List (String × Phot.Band ℝ)} {hd hi hd' hi' : Bool} {kd i k : Int} {s : TplFit.Slot ℝ × List (Phot.Slot ℝ)}
    (h1 : TplFit.Rel op hd hi f kd i s.1) (h2 : List.Forall₂ (BandRel op tx ty z data hd' hi' kd i) bands s.2) {row : Row ℝ} {s' : TplFit.Slot ℝ × List (Phot.Slot ℝ)}
    (h : dustTurn sq op light w k s = .ok (row, s')) :
    RowSpec op light w tx ty z f bands data i k row ∧ ∃ kd', TplFit.Rel op hd hi f kd' i s'.1 ∧ List.Forall₂ (BandRel op tx ty z data hd' hi' kd' i) bands s'.2 := by
  unfold dustTurn at h
  obtain ⟨s1, e1, h⟩ := Res.bind_eq_ok.1 h
  obtain ⟨p, e2, h⟩ := Res.bind_eq_ok.1 h
  obtain ⟨cp, e3, h⟩ := Res.bind_eq_ok.1 h
  obtain ⟨ph, e4, h⟩ := Res.bind_eq_ok.1 h
  obtain ⟨fit, e5, h⟩ := Res.bind_eq_ok.1 h
  cases h
  -- the dust
  have hdu : ∃ kd', TplFit.Rel op hd hi f kd' i s1.1 ∧ List.Forall₂ (BandRel op tx ty z data hd' hi' kd' i) bands s1.2 ∧ TplFit.dustFun op kd' = TplFit.dustFun op k := by
    cases hop : op.dust with
    | false =>
      rw [hop] at e1
      cases e1
      exact ⟨kd, h1, h2, TplFit.dustFun_off hop _ _⟩
    | true =>
      rw [hop, if_pos rfl] at e1
      obtain ⟨r, d1, e1⟩ := Res.bind_eq_ok.1 e1
      obtain ⟨bs, d2, e1⟩ := Res.bind_eq_ok.1 e1
      cases e1
      exact ⟨k, (h1.dustStep hf hop (b := r.1) d1).1, onBands_forall (fun a b x hR hx => BandRel.dust hz hop hR hx) h2 d2, rfl⟩
  obtain ⟨kd', r1, r2, r3⟩ := hdu
  -- the prior
  have hp : p = TplFit.priorOf op k := by
    unfold TplFit.priorOf
    cases hop : op.applyPrior with
    | false => rw [hop] at e2; cases e2; rfl
    | true =>
      rw [hop, if_pos rfl] at e2
      rw [if_pos rfl]
      unfold Res.atZ at e2
      split at e2
      · cases e2
      · rw [Res.at_eq_ok.1 e2]; rfl
  obtain ⟨q1, q2, q3, -, -⟩ := TplFit.crossProducts_full hf r1 (.inl rfl) (show TplFit.crossProducts false 0 0 s1.1 = .ok (cp.1, cp.2) from e3)
  have hv' : ∀ b ∈ s1.2, Phot.Valid b.data := by
    intro b hb
    obtain ⟨j, hj, rfl⟩ := List.getElem_of_mem hb
    obtain ⟨hl, hh⟩ := List.forall₂_iff_get.1 r2
    have := (hh j (by rw [hl]; exact hj) hj).2.1
    exact hv _ _ this
  obtain ⟨ms, m1, m2⟩ := photCross_ok hw hv' (show Phot.photCross light w false 0 0 0 s1.2 [] = .ok (ph.1, ph.2) from e4)
  have hps : List.Forall₂ (fun nb p => LineCat.mapFind nb.1 data = some p) bands (s1.2.map (·.data)) := by
    rw [List.forall₂_map_right_iff]
    exact r2.imp fun nb b hb => hb.2.1
  have hms : List.Forall₂ (fun nb m => BandFlux tx ty z light (TplFit.dustFun op k) (TplFit.igmFun op i) nb.2 m) bands ms := by
    rw [List.forall₂_iff_get] at r2 m1 ⊢
    refine ⟨r2.1.trans m1.1, fun j j1 j2 => ?_⟩
    have := (r2.2 j j1 (by rw [← r2.1]; exact j1)).flux hz (m1.2 j (by rw [← r2.1]; exact j1) j2)
    rw [r3] at this
    exact this
  rw [hp, q1, r3, m2, ← TplFit.sumsOf_append] at e5
  have herr : ∀ s ∈ f.all (TplFit.dustFun op k) (TplFit.igmFun op i) ++ List.zipWith (sample w) (s1.2.map (·.data)) ms, s.e ≠ 0 := by
    intro s hs
    rcases List.mem_append.1 hs with hs | hs
    · exact TplFit.sample_err (obs := [f]) (by simpa using hf) (TplFit.dustFun op k) (TplFit.igmFun op i) s (by simpa [TplFit.allSamples] using hs)
    · obtain ⟨j, hj, rfl⟩ := List.getElem_of_mem hs
      rw [List.getElem_zipWith]
      refine div_ne_zero ?_ hw
      rw [List.getElem_map]
      exact (hv' _ (List.getElem_mem _)).err
  have hnz : ∃ s ∈ f.all (TplFit.dustFun op k) (TplFit.igmFun op i) ++ List.zipWith (sample w) (s1.2.map (·.data)) ms, s.x ≠ 0 := by
    by_contra hc
    push Not at hc
    apply q2
    rw [q1, r3]
    simp only [TplFit.sumsOf]
    apply List.sum_eq_zero
    intro x hx
    obtain ⟨s, hs, rfl⟩ := List.mem_map.1 hx
    rw [hc s (List.mem_append.2 (.inl hs))]; ring
  obtain ⟨f', a0, g1, g2⟩ := TplFit.C64_fit hsq op.thr (TplFit.priorOf op k) _ herr hnz
  rw [g1] at e5
  cases e5
  refine ⟨⟨rfl, s1.2.map (·.data), ms, a0, hps, hms, g2, ?_⟩, kd', q3, r2⟩
  show Phot.chi2Phot ph.1 fit.ampl = _
  rw [m2, TplFit.chi2_sums _ _ (fun s hs => herr s (List.mem_append.2 (.inr hs)))]
  rfl

theorem dustTurns_spec {sq : ℝ → ℝ} (hsq : TplFit.IsSqrt sq) (hz : -1 < z) {op : TplFit.Opt ℝ} {tx : List ℝ} {data : Phot.Data ℝ} (hv : ∀ n p, LineCat.mapFind n data = some p → Phot.Valid p)
    {light w : ℝ} (hw : w ≠ 0) {f : TplFit.Obs ℝ} (hf : f.Ok) {bands : List (String × Phot.Band ℝ)} {hd hi hd' hi' : Bool} {i : Int} : ∀ {ks : List Int} {kd : Int}
    {s : TplFit.Slot ℝ × List (Phot.Slot ℝ)}, TplFit.Rel op hd hi f kd i s.1 → List.Forall₂ (BandRel op tx ty z data hd' hi' kd i) bands s.2 → ∀ {rows : List (Row ℝ)},
    dustTurns sq op light w ks s = .ok rows → List.Forall₂ (RowSpec op light w tx ty z f bands data i) ks rows := by
  intro ks
  induction ks with
  | nil => intro kd s _ _ rows h; cases h; exact .nil
  | cons k ks ih =>
    intro kd s h1 h2 rows h
    unfold dustTurns at h
    obtain ⟨r, e1, h⟩ := Res.bind_eq_ok.1 h
    obtain ⟨rs, e2, h⟩ := Res.bind_eq_ok.1 h
    cases h
    obtain ⟨q, kd', q1, q2⟩ := dustTurn_spec hsq hz hv hw hf h1 h2 (show dustTurn sq op light w k s = .ok (r.1, r.2) from e1)
    exact .cons q (ih q1 q2 e2)

theorem best_spec {rows : List (Row ℝ)} {b : Row ℝ} (h : best rows = some b) :
    ∃ i : Nat, rows[i]? = some b ∧ (∀ (j : Nat) (r : Row ℝ), rows[j]? = some r → b.fit.chi2 ≤ r.fit.chi2 ∧ (j < i → b.fit.chi2 < r.fit.chi2)) := by
  cases rows with
  | nil => cases h
  | cons r rs =>
    simp only [best, Option.some.injEq] at h
    have H : ∀ (l : List (Row ℝ)) (pre : List (Row ℝ)) (c : Row ℝ), (∃ i : Nat, pre[i]? = some c ∧ ∀ (j : Nat) (r : Row ℝ), pre[j]? = some r → c.fit.chi2 ≤ r.fit.chi2 ∧
        (j < i → c.fit.chi2 < r.fit.chi2)) → ∃ i : Nat, (pre ++ l)[i]? = some (l.foldl (fun b r => if r.fit.chi2 < b.fit.chi2 then r else b) c) ∧
        ∀ (j : Nat) (r : Row ℝ), (pre ++ l)[j]? = some r → (l.foldl (fun b r => if r.fit.chi2 < b.fit.chi2 then r else b) c).fit.chi2 ≤ r.fit.chi2 ∧
          (j < i → (l.foldl (fun b r => if r.fit.chi2 < b.fit.chi2 then r else b) c).fit.chi2 < r.fit.chi2) := by
      intro l
      induction l with
      | nil => intro pre c hc; simpa using hc
      | cons x l ih =>
        intro pre c hc
        have := ih (pre ++ [x]) (if x.fit.chi2 < c.fit.chi2 then x else c) ?_
        · simpa using this
        · obtain ⟨i, i1, i2⟩ := hc
          by_cases hx : x.fit.chi2 < c.fit.chi2
          · rw [if_pos hx]
            refine ⟨pre.length, by simp, fun j r hr => ?_⟩
            rcases Nat.lt_or_ge j pre.length with hj | hj
            · rw [List.getElem?_append_left hj] at hr
              have := (i2 j r hr).1
              exact ⟨by linarith, fun _ => by linarith⟩
            · rw [List.getElem?_append_right hj] at hr
              have : j - pre.length = 0 := by
                by_contra hc
                rw [List.getElem?_eq_none (by simp; omega)] at hr
                cases hr
              rw [this] at hr
              cases hr
              exact ⟨le_rfl, fun hlt => by omega⟩
          · rw [if_neg hx]
            have hil := (List.getElem?_eq_some_iff.1 i1).1
            refine ⟨i, by rw [List.getElem?_append_left hil]; exact i1, fun j r hr => ?_⟩
            rcases Nat.lt_or_ge j pre.length with hj | hj
            · rw [List.getElem?_append_left hj] at hr
              exact i2 j r hr
            · rw [List.getElem?_append_right hj] at hr
              have : j - pre.length = 0 := by
                by_contra hc
                rw [List.getElem?_eq_none (by simp; omega)] at hr
                cases hr
              rw [this] at hr
              cases hr
              exact ⟨not_lt.1 hx, fun hlt => by omega⟩
    have := H rs [r] r ⟨0, rfl, fun j x hx => by
      cases j with
      | zero => cases hx; exact ⟨le_rfl, fun hh => by omega⟩
      | succ j => simp at hx⟩
    rw [h] at this
    simpa using this

/-- **C169** Whenever the fit of a template with photometry returns, its rows are, for each dust index in order, the least squares fit of the samples of the spectrum together
with the bands, each band counting as a sample whose model is the flux of the redshifted, extinguished template integrated in the band and whose error is divided by the
weight; the photometric chi2 is the part of the bands. The row kept is the first of smallest chi2. -/
theorem C169_fit {sq : ℝ → ℝ} (hsq : TplFit.IsSqrt sq) (htx : tp.tx.Pairwise (· < ·)) (hne : tp.tx ≠ []) (hty : ty.length = tp.tx.length) (hte : te.length = tp.tx.length)
    (hpos : ∀ x ∈ tp.tx, 0 < x) (hreb : tp.reb = Rebin.linear .no tp.tx ty te) (hz : -1 < z) {o : Input ℝ} (ho : o.Ok z) {bands : List (String × Phot.Band ℝ)}
    (hb : ∀ nb ∈ bands, nb.2.lambda.Pairwise (· < ·)) {data : Phot.Data ℝ} (hv : ∀ n p, LineCat.mapFind n data = some p → Phot.Valid p) {light w : ℝ} (hw : w ≠ 0) {a : Ask ℝ} {mi : Int} {ebmv : List Int}
    {priors : List (TplFit.Prior ℝ)} {fl : Bool × Bool} {rows : List (Row ℝ)} {b : Row ℝ} (h : fit sq light w tp a mi ebmv o bands data z priors fl = .ok (rows, b)) :
    ∃ (op : TplFit.Opt ℝ) (f : TplFit.Obs ℝ), OptSpec tp a o bands z priors op ∧ ObsAt tp.tx ty z o f ∧ (∀ nb ∈ bands, Covers tp.tx z nb.2.lambda) ∧
      List.Forall₂ (RowSpec op light w tp.tx ty z f bands data mi) ebmv rows ∧
      ∃ i : Nat, rows[i]? = some b ∧ ∀ (j : Nat) (r : Row ℝ), rows[j]? = some r → b.fit.chi2 ≤ r.fit.chi2 ∧ (j < i → b.fit.chi2 < r.fit.chi2) := by
  have hz' : 0 < 1 + z := by linarith
  unfold fit at h
  split at h
  · cases h
  obtain ⟨r, h1, h⟩ := Res.bind_eq_ok.1 h
  obtain ⟨bs, h2, h⟩ := Res.bind_eq_ok.1 h
  obtain ⟨s, h3, h⟩ := Res.bind_eq_ok.1 h
  obtain ⟨rows', h4, h⟩ := Res.bind_eq_ok.1 h
  cases hbest : best rows' with
  | none => rw [hbest] at h; cases h
  | some b' =>
    rw [hbest] at h
    cases h
    obtain ⟨f, f1, f2, f3, f4, ⟨hi0, f5⟩, f6⟩ := TplCompute.rebinObs_spec htx hty hte hpos hreb hz ho h1
    rw [hreb] at h2
    have hS := bandSlots_start htx hne hty hte hpos hz hb h2
    set op := options tp a mi ebmv z priors (igmIsInRange r.2.1 bs) with hop
    -- the extinctions before the loop
    have hprep : ∃ hd hi hd' hi' i kd, TplFit.Rel op hd hi f kd i s.1 ∧ List.Forall₂ (BandRel op tp.tx ty z data hd' hi' kd i) bands s.2 ∧ (op.igm = true → i = mi) := by
      unfold prepare at h3
      obtain ⟨s1, e1, h3⟩ := Res.bind_eq_ok.1 h3
      have hs1 : ∃ hd hi hd' hi', TplFit.Rel op hd hi f (-1) (-1) s1.1 ∧ List.Forall₂ (BandRel op tp.tx ty z data hd' hi' (-1) (-1)) bands s1.2 := by
        by_cases hact : (op.dust || op.igm) = true
        · rw [if_pos hact] at e1
          have hact' : op.dust = true ∨ op.igm = true := by simpa using hact
          obtain ⟨r0, d1, e1⟩ := Res.bind_eq_ok.1 e1
          obtain ⟨bs', d2, e1⟩ := Res.bind_eq_ok.1 e1
          cases e1
          simp only at d1 d2
          rw [f3] at d1
          exact ⟨_, _, _, _, TplFit.initSlot_inv f2 hact' (u := r0.1) d1, onBands_forall (fun x y v hR hx => BandStart.init hz hact' hR hx) hS d2⟩
        · rw [if_neg hact] at e1
          cases e1
          have hact' : ¬ (op.dust = true ∨ op.igm = true) := by simpa using hact
          refine ⟨fl.1, fl.2, fl.1, fl.2, ?_, hS.imp fun nb b hR => hR.off hact'⟩
          simp only
          rw [f3]
          refine ⟨rfl, rfl, rfl, rfl, rfl, ?_, fun _ => rfl, fun _ => rfl, fun _ hx => by omega⟩
          rw [if_neg hact']
          exact Tpl.inv_make op.c f.axis f.base fl.1 fl.2 f2.base_len
      obtain ⟨hd, hi, hd', hi', g1, g2⟩ := hs1
      cases hig : op.igm with
      | false =>
        rw [hig] at h3
        cases h3
        exact ⟨hd, hi, hd', hi', -1, -1, g1, g2, fun hc => by cases hc⟩
      | true =>
        rw [hig, if_pos rfl] at h3
        obtain ⟨r0, d1, h3⟩ := Res.bind_eq_ok.1 h3
        obtain ⟨bs', d2, h3⟩ := Res.bind_eq_ok.1 h3
        cases h3
        exact ⟨hd, hi, hd', hi', mi, -1, (g1.igmStep f2 hig (b := r0.1) d1).1, onBands_forall (fun x y v hR hx => BandRel.igm hz hig hR hx) g2 d2, fun _ => rfl⟩
    obtain ⟨hd, hi, hd', hi', i, kd, g1, g2, g3⟩ := hprep
    have hT := dustTurns_spec hsq hz hv hw f2 g1 g2 h4
    have hig : TplFit.igmFun op i = TplFit.igmFun op mi := by
      cases hc : op.igm with
      | false => exact TplFit.igmFun_off hc _ _
      | true => rw [g3 hc]
    refine ⟨op, f, ⟨rfl, rfl, rfl, ?_, rfl, ?_, rfl⟩, f1, ?_, ?_, best_spec hbest⟩
    · show (a.igm && igmIsInRange r.2.1 bs) = true ↔ _
      rw [Bool.and_eq_true]
      refine and_congr_right fun _ => ?_
      unfold igmIsInRange
      rw [Bool.or_eq_true, TplFit.C65_igm_range]
      refine or_congr ?_ ?_
      · constructor
        · rintro ⟨lo, hlo, hle⟩
          rw [List.mem_singleton] at hlo
          subst hlo
          exact ⟨_, f6, hle⟩
        · rintro ⟨w', hc, hle⟩
          exact ⟨_, List.mem_singleton.2 rfl, le_trans ((f5 w').1 hc).1 hle⟩
      · have hrange : ∀ (nb : String × Phot.Band ℝ) (b : Phot.Slot ℝ), BandStart tp.tx ty z data fl nb b →
            (TplFit.igmIsInRange [(SAxis.lambdaRange b.t.axis).b] = true ↔ ∃ l ∈ nb.2.lambda, l / (1 + z) ≤ 1216) := by
          rintro nb b ⟨-, -, c3, c4, base, -, -, c7⟩
          rw [TplFit.C65_igm_range, c7]
          have hr : SAxis.lambdaRange (nb.2.lambda.map (· / (1 + z))) = ⟨nb.2.lambda[0] / (1 + z), nb.2.lambda[nb.2.lambda.length - 1] / (1 + z)⟩ := by
            unfold SAxis.lambdaRange
            rw [dif_neg (by rw [List.length_map]; omega)]
            simp
          show (∃ lo ∈ [(SAxis.lambdaRange (nb.2.lambda.map (· / (1 + z)))).b], lo ≤ 1216) ↔ _
          rw [hr]
          constructor
          · rintro ⟨lo, hlo, hle⟩
            rw [List.mem_singleton] at hlo
            subst hlo
            exact ⟨_, List.getElem_mem _, hle⟩
          · rintro ⟨l, hl, hle⟩
            refine ⟨_, List.mem_singleton.2 rfl, le_trans (div_le_div_of_nonneg_right ?_ hz'.le) hle⟩
            obtain ⟨j, hj, rfl⟩ := List.getElem_of_mem hl
            rcases Nat.eq_zero_or_pos j with e | e
            · simp only [e]; exact le_rfl
            · exact (List.pairwise_iff_getElem.1 c4 0 j (by omega) hj e).le
        rw [List.any_eq_true]
        obtain ⟨hl, hh⟩ := List.forall₂_iff_get.1 hS
        constructor
        · rintro ⟨b, hb', hr⟩
          obtain ⟨j, hj, rfl⟩ := List.getElem_of_mem hb'
          exact ⟨_, List.getElem_mem (by rw [hl]; exact hj), (hrange _ _ (hh j (by rw [hl]; exact hj) hj)).1 hr⟩
        · rintro ⟨nb, hnb, hr⟩
          obtain ⟨j, hj, rfl⟩ := List.getElem_of_mem hnb
          exact ⟨_, List.getElem_mem (by rw [← hl]; exact hj), (hrange _ _ (hh j hj (by rw [← hl]; exact hj))).2 hr⟩
    · show (decide (priors ≠ []) && tp.hasDust && decide (priors.length = tp.nEbmv)) = true ↔ _
      simp [and_assoc]
    · intro nb hnb
      by_contra hc
      have := (C169_bands (te := te) htx hne hty hte hpos hz (hb nb hnb)).2 hc
      clear hT
      have key : ∀ (l : List (String × Phot.Band ℝ)) (bs : List (Phot.Slot ℝ)), nb ∈ l → bandSlots (Rebin.linear .no tp.tx ty te) z data fl l ≠ .ok bs := by
        intro l
        induction l with
        | nil => intro bs hm; simp at hm
        | cons x l ih =>
          intro bs hm hk
          unfold bandSlots at hk
          obtain ⟨s, k1, hk⟩ := Res.bind_eq_ok.1 hk
          obtain ⟨ss, k2, hk⟩ := Res.bind_eq_ok.1 hk
          rcases List.mem_cons.1 hm with e | e
          · subst e
            unfold bandSlot at k1
            rw [this] at k1
            cases k1
          · exact ih ss e k2
      exact key bands bs hnb h2
    · refine hT.imp fun k row hr => ?_
      unfold RowSpec at hr ⊢
      rw [hig] at hr
      exact hr

end

/-! ## A case: the template and the observation of the case of C167, with a band over the wavelengths 2 and 4, at the redshift 1 -/

def exBand : Phot.Band ℝ := ⟨[1, 1], [2, 4], [2, 1], 3, 2⟩
noncomputable def exData : Phot.Data ℝ := [("r", ⟨1, 1 / 2, 4, 4⟩)]

/-- The hypotheses are met and the call returns. -/
theorem ex_fit (k : Int) : TplCompute.exIn.Ok 1 ∧ (∀ nb ∈ [("r", exBand)], nb.2.lambda.Pairwise (· < ·)) ∧ (∀ n p, LineCat.mapFind n exData = some p → Phot.Valid p) ∧
    ∃ rows b, fit Real.sqrt 4 1 TplCompute.exTp TplCompute.exAsk (-1) [k] TplCompute.exIn [("r", exBand)] exData 1 [] (false, false) = .ok (rows, b) := by
  refine ⟨TplCompute.ex_compute.1 1 (by simp) _ (by simp), by norm_num [exBand], ?_, ?_⟩
  · intro n p hp
    simp only [exData, LineCat.mapFind] at hp
    split at hp
    · cases hp
      exact ⟨by norm_num, by norm_num, by norm_num⟩
    · cases hp
  · let o : TplFit.Obs ℝ := ⟨[1, 2, 3], [1, 1, 2], [1, 2, 3], [1, 1, 1], [1, 1, 1], 0, 1⟩
    have hr : TplCompute.rebinObs TplCompute.exTp 1 TplCompute.exAsk.ovThr (false, false) TplCompute.exIn = .ok (o.slot false false, 1, 1) := by
      unfold TplCompute.rebinObs
      simp only [TplCompute.exTp, TplCompute.exIn, TplCompute.exAsk]
      rw [TplModel.ex_rebin, Res.bind_ok]
      simp only []
      rw [TplCompute.ex_closed, Res.bind_ok]
      rfl
    have hok : o.Ok := ⟨by norm_num [o], by simp [o], by simp [o], by simp [o], by simp [o], by simp [o], by simp [o], by
      intro j _ _ e he
      have : e ∈ o.err := List.mem_of_getElem? he
      have : e = 1 := by simpa [o] using this
      rw [this]; norm_num⟩
    have hcov : Covers [1, 2, 4] 1 [2, 4] := by
      refine ⟨by simp, fun l hl => ⟨1, 4, rfl, rfl, ?_⟩⟩
      simp only [List.mem_cons, List.not_mem_nil, or_false] at hl
      rcases hl with rfl | rfl <;> norm_num
    obtain ⟨cells, c1, c2, -⟩ := rebinBand_covers (ty := [1, 1, 3]) (te := [1, 1, 1]) (tx := [1, 2, 4]) (z := 1) (by norm_num) (by simp) (by simp) (by norm_num) (by norm_num) hcov
    have hb : bandSlots TplCompute.exTp.reb 1 exData (false, false) [("r", exBand)] =
        .ok [⟨"r", exBand, ⟨1, 1 / 2, 4, 4⟩, Tpl.make ([2, 4].map (· / (1 + 1))) (cells.map (·.flux)) false false⟩] := by
      unfold bandSlots bandSlots bandSlot
      simp only [TplCompute.exTp, exBand]
      rw [c1, Res.bind_ok]
      rfl
    have hint : ∃ m, exBand.integrate 4 (cells.map (·.flux)) = .ok m := by
      have hl : cells.length = 2 := c2
      match cells, hl with
      | [a, b], _ =>
        unfold Phot.Band.integrate
        rw [if_neg (by simp [exBand]), if_neg (by simp)]
        simp only [exBand, Phot.trapezes, List.map_cons, List.map_nil, List.zipWith_cons_cons, List.zipWith_nil_left, List.length_cons, List.length_nil, Res.foldN, Phot.trapeze]
        norm_num [Res.at_, Res.bind_ok]
    obtain ⟨m, hm⟩ := hint
    unfold fit
    rw [if_neg (by simp), hr, Res.bind_ok, hb, Res.bind_ok]
    generalize hbs : [(⟨"r", exBand, ⟨1, 1 / 2, 4, 4⟩, Tpl.make ([2, 4].map (· / (1 + 1))) (cells.map (·.flux)) false false⟩ : Phot.Slot ℝ)] = bs
    simp only []
    have hoff : (options TplCompute.exTp TplCompute.exAsk (-1) [k] 1 [] (igmIsInRange 1 bs)).igm = false := by simp [options, TplCompute.exAsk]
    have hoff' : (options TplCompute.exTp TplCompute.exAsk (-1) [k] 1 [] (igmIsInRange 1 bs)).dust = false := by simp [options, TplCompute.exAsk]
    have hoffp : (options TplCompute.exTp TplCompute.exAsk (-1) [k] 1 [] (igmIsInRange 1 bs)).applyPrior = false := by simp [options]
    have hofff : (options TplCompute.exTp TplCompute.exAsk (-1) [k] 1 [] (igmIsInRange 1 bs)).fast = false := rfl
    generalize options TplCompute.exTp TplCompute.exAsk (-1) [k] 1 [] (igmIsInRange 1 bs) = op at *
    have hrel : TplFit.Rel op false false o (-1) (-1) (o.slot false false) := by
      refine ⟨rfl, rfl, rfl, rfl, rfl, ?_, fun _ => rfl, fun _ => rfl, fun _ hx => by omega⟩
      rw [if_neg (by rw [hoff, hoff']; simp)]
      exact Tpl.inv_make op.c o.axis o.base false false hok.base_len
    have hx : (⟨1, 1, 1⟩ : TplFit.Sample ℝ) ∈ o.all (TplFit.dustFun op (-1)) (TplFit.igmFun op (-1)) := by
      norm_num [TplFit.Obs.all, TplFit.Obs.samples, o, TplFit.dustFun, TplFit.igmFun, List.range']
    have herr := TplFit.sample_err (obs := [o]) (by simpa using hok) (TplFit.dustFun op (-1)) (TplFit.igmFun op (-1))
    have hcp : ∃ cp, TplFit.crossProducts op.fast 0 0 (o.slot false false) = .ok cp :=
      hrel.cross_total hok (by rw [hofff]; simp) (by rw [hofff]; simp) (by omega) (by omega)
        (TplFit.weight_pos (fun s hs => herr s (by simpa [TplFit.allSamples] using hs)) ⟨_, hx, by norm_num⟩)
    rw [hofff] at hcp
    obtain ⟨cp, hcp⟩ := hcp
    obtain ⟨q1, -⟩ := TplFit.crossProducts_full hok hrel (.inl rfl) (show TplFit.crossProducts false 0 0 (o.slot false false) = .ok (cp.1, cp.2) from hcp)
    have hv : ∀ b ∈ bs, Phot.Valid b.data := by
      intro b hb'
      rw [← hbs, List.mem_singleton] at hb'
      subst hb'
      exact ⟨by norm_num, by norm_num, by norm_num⟩
    have hph : ∃ ph, Phot.photCross 4 1 false 0 0 0 bs [] = .ok ph := by
      obtain ⟨x, x1, -⟩ := Phot.photLoop 4 1 (fun _ => m) false 0 bs (by
        intro b hb'
        rw [← hbs, List.mem_singleton] at hb'
        subst hb'
        exact hm) hv bs.length le_rfl
      unfold Phot.photCross
      simp only [Bool.false_eq_true, false_and, if_false]
      rw [x1, Res.bind_ok]
      exact ⟨_, rfl⟩
    obtain ⟨ph, hph⟩ := hph
    obtain ⟨ms, -, m2⟩ := photCross_ok one_ne_zero hv (show Phot.photCross 4 1 false 0 0 0 bs [] = .ok (ph.1, ph.2) from hph)
    obtain ⟨ft, a0, g1, -⟩ := TplFit.C64_fit TplFit.isSqrt_real op.thr TplFit.Prior.empty (o.all (TplFit.dustFun op (-1)) (TplFit.igmFun op (-1)) ++
      List.zipWith (sample 1) (bs.map (·.data)) ms) (by
        intro s hs
        rcases List.mem_append.1 hs with hs | hs
        · exact herr s (by simpa [TplFit.allSamples] using hs)
        · obtain ⟨j, hj, rfl⟩ := List.getElem_of_mem hs
          rw [List.getElem_zipWith]
          refine div_ne_zero ?_ one_ne_zero
          rw [List.getElem_map]
          exact (hv _ (List.getElem_mem _)).err) ⟨_, List.mem_append.2 (.inl hx), by norm_num⟩
    rw [TplFit.sumsOf_append, ← q1, ← m2] at g1
    unfold prepare
    rw [if_neg (by rw [hoff, hoff']; simp), Res.bind_ok, if_neg (by rw [hoff]; simp), Res.bind_ok]
    unfold dustTurns dustTurns dustTurn
    rw [if_neg (by rw [hoff']; simp), Res.bind_ok, if_neg (by rw [hoffp]; simp), Res.bind_ok, hcp, Res.bind_ok, hph, Res.bind_ok, g1, Res.bind_ok]
    exact ⟨_, _, rfl⟩

end PhotFit
end Amazed
