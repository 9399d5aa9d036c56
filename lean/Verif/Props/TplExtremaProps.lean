import Verif.Props.TplArrayProps
import Verif.Props.MedianContProps
import Mathlib.Order.Bounds.Basic

set_option linter.unusedVariables false
set_option linter.unusedSectionVars false

/-! # C144, C146: parameters of the candidates of template fitting and template combination -/

namespace Amazed
namespace TplSolve
open LineCat (mapFind Keyed mapFind_mem)

variable {V C M : Type}

/-- All the lists of a result have one value per redshift. -/
structure Full (n : Nat) (r : TfRes V) : Prop where
  chi2 : r.chi2.length = n
  chi2Phot : r.chi2Phot.length = n
  ampl : r.ampl.length = n
  amplErr : r.amplErr.length = n
  amplSigma : r.amplSigma.length = n
  ebmv : r.ebmv.length = n
  meiksin : r.meiksin.length = n
  dtm : r.dtm.length = n
  mtm : r.mtm.length = n
  snr : r.snr.length = n
  logPrior : r.logPrior.length = n
  interm : r.interm.length = n

/-- The parameters of a candidate are those of a result at redshift number `k`. -/
structure FittedIs (f : Fitted V) (r : TfRes V) (k : Nat) : Prop where
  merit : r.chi2[k]? = some f.merit
  meritPhot : r.chi2Phot[k]? = some f.meritPhot
  meiksin : r.meiksin[k]? = some f.meiksin
  ebmv : r.ebmv[k]? = some f.ebmv
  ampl : r.ampl[k]? = some f.ampl
  amplErr : r.amplErr[k]? = some f.amplErr
  dtm : r.dtm[k]? = some f.dtm
  mtm : r.mtm[k]? = some f.mtm
  snr : r.snr[k]? = some f.snr
  logPrior : r.logPrior[k]? = some f.logPrior

theorem at_some {A : Type} {l : List A} {k : Nat} {a : A} (h : l[k]? = some a) : Res.at_ l k = .ok a := by
  obtain ⟨h1, rfl⟩ := List.getElem?_eq_some_iff.1 h
  exact Res.at_of_lt h1

theorem at_ub {A : Type} {l : List A} {k : Nat} (h : l.length ≤ k) : Res.at_ l k = .ub := by
  unfold Res.at_
  rw [List.getElem?_eq_none h]

/-! ## C146: the result of a template -/

/-- A result holds at redshift number `k` the values of a fit. -/
structure Holds (snr : V → V → V) (r : TfRes V) (k : Nat) (f : FitZ V) : Prop where
  chi2 : r.chi2[k]? = some f.chi2
  chi2Phot : r.chi2Phot[k]? = some f.chi2Phot
  ampl : r.ampl[k]? = some f.ampl
  amplErr : r.amplErr[k]? = some f.amplErr
  amplSigma : r.amplSigma[k]? = some f.amplSigma
  ebmv : r.ebmv[k]? = some f.ebmv
  meiksin : r.meiksin[k]? = some f.meiksin
  dtm : r.dtm[k]? = some f.dtm
  mtm : r.mtm[k]? = some f.mtm
  snr : r.snr[k]? = some (snr f.dtm f.mtm)
  logPrior : r.logPrior[k]? = some f.logPrior
  interm : r.interm[k]? = some f.interm

theorem setAt_spec {snr : V → V → V} {r : TfRes V} {n i : Nat} {f : FitZ V} (h : Full n r) (hi : i < n) :
    ∃ r', r.setAt snr i f = .ok r' ∧ Full n r' ∧ r'.redshifts = r.redshifts ∧ r'.cstLog = r.cstLog ∧ Holds snr r' i f ∧
      ∀ k g, k ≠ i → Holds snr r k g → Holds snr r' k g := by
  unfold TfRes.setAt
  rw [if_pos (by rw [h.chi2]; exact hi)]
  refine ⟨_, rfl, ?_, rfl, rfl, ?_, ?_⟩
  · constructor <;> simp only [List.length_set] <;> first | exact h.chi2 | exact h.chi2Phot | exact h.ampl | exact h.amplErr | exact h.amplSigma | exact h.ebmv | exact h.meiksin | exact h.dtm | exact h.mtm | exact h.snr | exact h.logPrior | exact h.interm
  · constructor <;> simp only [List.getElem?_set, if_true]
    · rw [h.chi2, if_pos hi]
    · rw [h.chi2Phot, if_pos hi]
    · rw [h.ampl, if_pos hi]
    · rw [h.amplErr, if_pos hi]
    · rw [h.amplSigma, if_pos hi]
    · rw [h.ebmv, if_pos hi]
    · rw [h.meiksin, if_pos hi]
    · rw [h.dtm, if_pos hi]
    · rw [h.mtm, if_pos hi]
    · rw [h.snr, if_pos hi]
    · rw [h.logPrior, if_pos hi]
    · rw [h.interm, if_pos hi]
  · intro k g hk hg
    have hk' : i ≠ k := fun e => hk e.symm
    constructor <;> simp only [List.getElem?_set, if_neg hk']
    · exact hg.chi2
    · exact hg.chi2Phot
    · exact hg.ampl
    · exact hg.amplErr
    · exact hg.amplSigma
    · exact hg.ebmv
    · exact hg.meiksin
    · exact hg.dtm
    · exact hg.mtm
    · exact hg.snr
    · exact hg.logPrior
    · exact hg.interm

/-- **C146** The result of the fit of a template: the redshifts of the request and, at each of them, all the values of the fit at that redshift, and no
other; the signal to noise ratio is that of the sums of that fit. -/
theorem C146_result {d : V} {snr : V → V → V} {fit : Nat → ℝ → Res (FitZ V)} {cst : ℝ} {zs : List ℝ} (h : ∀ (i : Nat) (hi : i < zs.length), ∃ f, fit i zs[i] = .ok f) :
    ∃ r, tfCompute d snr fit cst zs = .ok r ∧ r.redshifts = zs ∧ r.cstLog = cst ∧ Full zs.length r ∧
      ∀ (i : Nat) (hi : i < zs.length), ∃ f, fit i zs[i] = .ok f ∧ Holds snr r i f := by
  unfold tfCompute
  have H := Res.foldN_inv (f := fun i (r : TfRes V) => Res.at_ zs i >>= fun z => fit i z >>= fun f => r.setAt snr i f)
    (fun k r => Full zs.length r ∧ r.redshifts = zs ∧ r.cstLog = cst ∧ ∀ (i : Nat) (hi : i < zs.length), i < k → ∃ f, fit i zs[i] = .ok f ∧ Holds snr r i f)
    zs.length 0 { TfRes.make d cst zs.length with redshifts := zs } ⟨by constructor <;> simp [TfRes.make], rfl, rfl, by intro i _ hi; omega⟩ ?_
  · obtain ⟨r, h1, h2, h3, h4, h5⟩ := H
    exact ⟨r, h1, h3, h4, h2, fun i hi => h5 i hi (by omega)⟩
  · rintro k r - hk ⟨h1, h2, h3, h4⟩
    rw [Nat.zero_add] at hk
    obtain ⟨f, hf⟩ := h k hk
    obtain ⟨r', e1, e2, e3, e4, e5, e6⟩ := setAt_spec (snr := snr) (f := f) h1 hk
    refine ⟨r', by rw [Res.at_of_lt hk, Res.bind_ok, hf, Res.bind_ok, e1], e2, e3.trans h2, e4.trans h3, ?_⟩
    intro i hi hik
    by_cases hki : i = k
    · subst hki; exact ⟨f, hf, e5⟩
    · obtain ⟨g, hg1, hg2⟩ := h4 i hi (by omega)
      exact ⟨g, hg1, e6 i g hki hg2⟩

/-- **C146** An error of the fit at a redshift is an error of the whole fit of the template: there is no partial result. -/
theorem C146_error {d : V} {snr : V → V → V} {fit : Nat → ℝ → Res (FitZ V)} {cst : ℝ} {zs : List ℝ} {k : Nat} {e : Err} (hk : k < zs.length)
    (h : ∀ (i : Nat) (hi : i < zs.length), i < k → ∃ f, fit i zs[i] = .ok f) (he : fit k zs[k] = .throw e) : tfCompute d snr fit cst zs = .throw e := by
  unfold tfCompute
  have H := Res.foldN_inv_throw (f := fun i (r : TfRes V) => Res.at_ zs i >>= fun z => fit i z >>= fun f => r.setAt snr i f) (fun i r => i ≤ k ∧ Full zs.length r) (fun e' => e' = e) zs.length 0
    { TfRes.make d cst zs.length with redshifts := zs } ⟨Nat.zero_le _, by constructor <;> simp [TfRes.make]⟩ ?_
  · rcases H with ⟨r, -, h1, -⟩ | ⟨e', h1, rfl⟩
    · omega
    · exact h1
  · rintro i r - hi ⟨h0, h1⟩
    rcases Nat.lt_or_ge i k with hik | hik
    · obtain ⟨f, hf⟩ := h i (by omega) hik
      obtain ⟨r', e1, e2, -⟩ := setAt_spec (snr := snr) (f := f) h1 (show i < zs.length by omega)
      exact Or.inl ⟨r', by rw [Res.at_of_lt (by omega), Res.bind_ok, hf, Res.bind_ok, e1], by omega, e2⟩
    · have : i = k := by omega
      subst this
      exact Or.inr ⟨e, by rw [Res.at_of_lt hk, Res.bind_ok, he, Res.bind_throw], rfl⟩

section snr
variable {K : Type} [Field K] [LinearOrder K] [IsStrictOrderedRing K]

/-- **C146** The signal to noise ratio: undefined without signal of the template, else null or positive; it is positive exactly when the correlation with
the data is, and its square is the decrease of the chi2, `dtm² / mtm`. -/
theorem C146_snr {sq : K → K} (hsq : ∀ x, 0 < x → 0 < sq x ∧ sq x * sq x = x) (dtm mtm : K) :
    (snrOf sq dtm mtm = none ↔ mtm ≤ 0) ∧ (0 < mtm → ∃ s, snrOf sq dtm mtm = some s ∧ 0 ≤ s ∧ (0 < s ↔ 0 < dtm) ∧ (0 < dtm → s * s = dtm * dtm / mtm)) := by
  unfold snrOf
  constructor
  · split_ifs <;> simp_all
  · intro hm
    rw [if_neg (not_le.2 hm)]
    obtain ⟨h1, h2⟩ := hsq mtm hm
    split_ifs with hd
    · exact ⟨0, rfl, le_rfl, by simp [hd], fun h => absurd h (not_lt.2 hd)⟩
    · rw [not_le] at hd
      refine ⟨dtm / sq mtm, rfl, (div_pos hd h1).le, by simp [hd, div_pos hd h1], fun _ => ?_⟩
      rw [div_mul_div_comm, h2]

example : snrOf (fun x : ℚ => if x = 4 then 2 else x) 6 4 = some 3 := by decide +kernel
end snr

/-! ## C144: the template of a candidate -/

theorem bestTpl_spec {k : Nat} : ∀ (m : List (String × TfRes V)) (b : ℝ × String), (∀ x ∈ m, k < x.2.chi2.length) →
    ∃ r, bestTpl k m b = .ok r ∧ r.1 ≤ b.1 ∧ (∀ x ∈ m, ∀ c, x.2.chi2[k]? = some c → r.1 ≤ c) ∧
      (r = b ∨ ∃ p x q, m = p ++ x :: q ∧ r.2 = x.1 ∧ x.2.chi2[k]? = some r.1 ∧ r.1 < b.1 ∧ ∀ y ∈ p, ∀ c, y.2.chi2[k]? = some c → r.1 < c) := by
  intro m
  induction m with
  | nil => intro b _; exact ⟨b, rfl, le_rfl, by simp, Or.inl rfl⟩
  | cons x xs ih =>
    intro b h
    have hk := h x (by simp)
    unfold bestTpl
    rw [Res.at_of_lt hk, Res.bind_ok]
    have hx : x.2.chi2[k]? = some x.2.chi2[k] := List.getElem?_eq_getElem hk
    classical
    by_cases hc : x.2.chi2[k] < b.1
    · obtain ⟨r, h1, h2, h3, h4⟩ := ih (x.2.chi2[k], x.1) (fun y hy => h y (by simp [hy]))
      refine ⟨r, by rw [if_pos hc]; exact h1, h2.trans hc.le, ?_, Or.inr ?_⟩
      · intro y hy c hcy
        rcases List.mem_cons.1 hy with rfl | hy
        · rw [hx] at hcy; cases hcy; exact h2
        · exact h3 y hy c hcy
      · rcases h4 with rfl | ⟨p, y, q, e1, e2, e3, e4, e5⟩
        · exact ⟨[], x, xs, rfl, rfl, hx, hc, by simp⟩
        · refine ⟨x :: p, y, q, by rw [e1]; rfl, e2, e3, e4.trans hc, ?_⟩
          intro w hw c hcw
          rcases List.mem_cons.1 hw with rfl | hw
          · rw [hx] at hcw; cases hcw; exact e4
          · exact e5 w hw c hcw
    · obtain ⟨r, h1, h2, h3, h4⟩ := ih b (fun y hy => h y (by simp [hy]))
      refine ⟨r, by rw [if_neg hc]; exact h1, h2, ?_, ?_⟩
      · intro y hy c hcy
        rcases List.mem_cons.1 hy with rfl | hy
        · rw [hx] at hcy; cases hcy; exact h2.trans (not_lt.1 hc)
        · exact h3 y hy c hcy
      · rcases h4 with rfl | ⟨p, y, q, e1, e2, e3, e4, e5⟩
        · exact Or.inl rfl
        · refine Or.inr ⟨x :: p, y, q, by rw [e1]; rfl, e2, e3, e4, ?_⟩
          intro w hw c hcw
          rcases List.mem_cons.1 hw with rfl | hw
          · rw [hx] at hcw; cases hcw; exact e4.trans_le (not_lt.1 hc)
          · exact e5 w hw c hcw

theorem copyAt_spec {r : TfRes V} {n k : Nat} {name : String} {c : ℝ} (h : Full n r) (hk : k < n) (hc : r.chi2[k]? = some c) :
    ∃ f, copyAt r name c k = .ok f ∧ f.name = name ∧ f.merit = c ∧ FittedIs f r k := by
  unfold copyAt
  have g : ∀ {A : Type} (l : List A), l.length = n → ∃ a, l[k]? = some a := fun l hl => ⟨l[k]'(by omega), List.getElem?_eq_getElem (by omega)⟩
  obtain ⟨a1, e1⟩ := g _ h.chi2Phot
  obtain ⟨a2, e2⟩ := g _ h.meiksin
  obtain ⟨a3, e3⟩ := g _ h.ebmv
  obtain ⟨a4, e4⟩ := g _ h.ampl
  obtain ⟨a5, e5⟩ := g _ h.amplErr
  obtain ⟨a6, e6⟩ := g _ h.dtm
  obtain ⟨a7, e7⟩ := g _ h.mtm
  obtain ⟨a8, e8⟩ := g _ h.snr
  obtain ⟨a9, e9⟩ := g _ h.logPrior
  rw [at_some e1, Res.bind_ok, at_some e2, Res.bind_ok, at_some e3, Res.bind_ok, at_some e4, Res.bind_ok, at_some e5, Res.bind_ok, at_some e6, Res.bind_ok,
    at_some e7, Res.bind_ok, at_some e8, Res.bind_ok, at_some e9, Res.bind_ok]
  exact ⟨_, rfl, rfl, rfl, hc, e1, e2, e3, e4, e5, e6, e7, e8, e9⟩

/-- **C144** The parameters reported for a redshift of the grid: they are all taken from the fit, at that redshift, of one template, the one of smallest chi2
at that redshift (the first name among equals), as soon as one template has a chi2 below the largest number. -/
theorem C144_fitted {top : ℝ} {m : List (String × TfRes V)} {zs : List ℝ} {z : ℝ} (hk : Keyed m) (hf : ∀ x ∈ m, Full zs.length x.2) (hz : z ∈ zs)
    (ht : ∃ x ∈ m, ∃ c, x.2.chi2[open Classical in zs.idxOf z]? = some c ∧ c < top) :
    open Classical in
    ∃ f r, fittedAt top m zs z = .ok f ∧ zs[zs.idxOf z]? = some z ∧ (f.name, r) ∈ m ∧ FittedIs f r (zs.idxOf z) ∧
      (∀ x ∈ m, ∀ c, x.2.chi2[zs.idxOf z]? = some c → f.merit ≤ c ∧ (x.1 < f.name → f.merit < c)) := by
  classical
  have hi : zs.idxOf z < zs.length := List.idxOf_lt_length_iff.2 hz
  obtain ⟨r, h1, h2, h3, h4⟩ := bestTpl_spec m (top, "") (fun x hx => by rw [(hf x hx).chi2]; exact hi)
  obtain ⟨x0, hx0, c0, hc0, hlt⟩ := ht
  have hr : r.1 < top := lt_of_le_of_lt (h3 x0 hx0 c0 hc0) hlt
  rcases h4 with rfl | ⟨p, x, q, e1, e2, e3, e4, e5⟩
  · exact absurd hr (lt_irrefl _)
  have hxm : x ∈ m := by rw [e1]; simp
  have hfind : findRes m r.2 = .ok x.2 := by
    unfold findRes
    rw [(mapFind_mem hk r.2 x.2).2 (by rw [e2]; exact hxm)]
  obtain ⟨f, g1, g2, g3, g4⟩ := copyAt_spec (name := r.2) (hf x hxm) hi e3
  refine ⟨f, x.2, ?_, List.getElem?_eq_getElem hi |>.trans (by simp), ?_, g4, ?_⟩
  · unfold fittedAt
    rw [h1, Res.bind_ok, hfind, Res.bind_ok, g1]
  · rw [g2, e2]; exact hxm
  · intro y hy c hc
    rw [g3]
    refine ⟨h3 y hy c hc, fun hlt' => ?_⟩
    rw [g2, e2] at hlt'
    rw [e1] at hy
    rcases List.mem_append.1 hy with hy | hy
    · exact e5 y hy c hc
    · rw [e1] at hk
      have hk2 := (List.pairwise_append.1 hk).2.1
      rcases List.mem_cons.1 hy with rfl | hy
      · exact absurd hlt' (lt_irrefl _)
      · exact absurd hlt' (not_lt.2 ((List.pairwise_cons.1 hk2).1 y hy).le)

theorem sameGrid_ok {zs : List ℝ} : ∀ (m : List (String × TfRes V)), (∀ x ∈ m, x.2.redshifts = zs ∧ x.2.chi2.length = zs.length) → sameGrid zs m = .ok () := by
  intro m
  induction m with
  | nil => intro _; rfl
  | cons x xs ih =>
    intro h
    obtain ⟨h1, h2⟩ := h x (by simp)
    unfold sameGrid
    rw [if_neg (not_not.2 h2), h1]
    have H := Res.foldN_inv (f := fun k (_ : Unit) => Res.at_ zs k >>= fun a => Res.at_ zs k >>= fun b => open Classical in if a ≠ b then .throw .INTERNAL_ERROR else .ok ())
      (fun _ _ => True) zs.length 0 () trivial (by
        intro k s _ hk _
        refine ⟨(), ?_, trivial⟩
        rw [Res.at_of_lt (by omega), Res.bind_ok, Res.bind_ok, if_neg (by simp)])
    obtain ⟨u, h3, -⟩ := H
    rw [h3, Res.bind_ok]
    exact ih fun y hy => h y (by simp [hy])

/-- **C144** The parameters of all the candidates of template fitting, in order: each candidate whose redshift is in the grid gets the best template at its
redshift, and the model spectrum computed from these parameters. -/
theorem C144_extrema_partial {top : ℝ} {model : ℝ → Fitted V → Res M} {m : List (String × TfRes V)} {zs cands : List ℝ} (hm : m ≠ []) (hk : Keyed m)
    (hf : ∀ x ∈ m, x.2.redshifts = zs ∧ Full zs.length x.2) (hc : ∀ z ∈ cands, z ∈ zs) (ht : ∀ k, k < zs.length → ∃ x ∈ m, ∃ c, x.2.chi2[k]? = some c ∧ c < top)
    (hmod : ∀ z f, ∃ s, model z f = .ok s) :
    ∃ l, tfExtrema top model m cands = .ok l ∧ l.length = cands.length ∧ ∀ (i : Nat) (hi : i < cands.length), ∃ f s,
      l[i]? = some (f, s) ∧ fittedAt top m zs cands[i] = .ok f ∧ model cands[i] f = .ok s := by
  classical
  cases m with
  | nil => exact absurd rfl hm
  | cons x xs =>
    obtain ⟨hx1, hx2⟩ := hf x (by simp)
    unfold tfExtrema
    simp only
    rw [hx1, sameGrid_ok _ (fun y hy => ⟨(hf y hy).1, (hf y hy).2.chi2⟩), Res.bind_ok]
    have H : ∀ i, i < cands.length → ∃ a, (Res.at_ cands i >>= fun z => fittedAt top (x :: xs) zs z >>= fun f => model z f >>= fun s => Res.ok (f, s)) = .ok a ∧ True := by
      intro i hi
      rw [Res.at_of_lt hi, Res.bind_ok]
      have hzm := hc _ (List.getElem_mem hi)
      obtain ⟨f, r, h1, -⟩ := C144_fitted (top := top) hk (fun y hy => (hf y hy).2) hzm (ht _ (List.idxOf_lt_length_iff.2 hzm))
      obtain ⟨s, hs⟩ := hmod cands[i] f
      rw [h1, Res.bind_ok, hs, Res.bind_ok]
      exact ⟨_, rfl, trivial⟩
    obtain ⟨l, hl, hlen, -⟩ := MedCont.tab_total (P := fun _ => True) _ H
    refine ⟨l, hl, hlen, ?_⟩
    intro i hi
    obtain ⟨a, ha, hg⟩ := Res.tab_get _ hl i hi
    rw [Res.at_of_lt hi, Res.bind_ok] at hg
    obtain ⟨f, h1, hg⟩ := Res.bind_eq_ok.1 hg
    obtain ⟨s, h2, hg⟩ := Res.bind_eq_ok.1 hg
    cases hg
    exact ⟨f, s, ha, h1, h2⟩

/-- **C144** The merit reported with a candidate is the smallest of all the merits given to the PDF at its redshift, over the templates and the dust and
IGM configurations, when the chi2 of each fit is the smallest of its table (as C65 proves of the fit). -/
theorem C144_merit {top c : ℝ} {zs : List ℝ} {size : String → Nat × Nat} {m : List (String × TfRes V)} {z : ℝ} {f : Fitted V} (hk : Keyed m) (hr : Results zs size m)
    (hf : ∀ x ∈ m, Full zs.length x.2) (hcst : ∀ x ∈ m, x.2.cstLog = c) (hz : z ∈ zs)
    (hleast : ∀ x ∈ m, ∀ k c, x.2.chi2[k]? = some c → IsLeast { v | ∃ i j, i < (size x.1).1 ∧ j < (size x.1).2 ∧ v = meritAt x.2.interm k i j } c)
    (ht : open Classical in ∃ x ∈ m, ∃ c, x.2.chi2[zs.idxOf z]? = some c ∧ c < top) (h : fittedAt top m zs z = .ok f) :
    ∃ a, tfArray top m = .ok a ∧ open Classical in IsLeast { v | ∃ l ∈ a.chisquares, l[zs.idxOf z]? = some v } f.merit := by
  classical
  have hm : m ≠ [] := by rintro rfl; obtain ⟨x, hx, -⟩ := ht; cases hx
  have hi : zs.idxOf z < zs.length := List.idxOf_lt_length_iff.2 hz
  obtain ⟨a, h1, -, -, -, h5, -⟩ := C143_array (top := top) (List.ne_nil_of_mem hz) hm hr hcst
  obtain ⟨f', r, g1, -, g3, g4, g5⟩ := C144_fitted (top := top) hk hf hz ht
  rw [h] at g1; cases g1
  have hrow : ∀ (t : List (List (List ℝ))) (i j : Nat), (meritRow t zs.length i j)[zs.idxOf z]? = some (meritAt t (zs.idxOf z) i j) := by
    intro t i j; unfold meritRow; rw [List.getElem?_map, List.getElem?_range hi]; rfl
  refine ⟨a, h1, ?_, ?_⟩
  · obtain ⟨i, j, hi', hj', e⟩ := (hleast _ g3 _ _ g4.merit).1
    refine ⟨meritRow r.interm zs.length i j, ?_, by rw [hrow, e]⟩
    rw [h5]
    exact List.mem_flatMap.2 ⟨_, g3, List.mem_flatMap.2 ⟨i, List.mem_range.2 hi', List.mem_map.2 ⟨j, List.mem_range.2 hj', rfl⟩⟩⟩
  · rintro v ⟨l, hl, hv⟩
    rw [h5] at hl
    obtain ⟨x, hx, hl⟩ := List.mem_flatMap.1 hl
    obtain ⟨i, hi', hl⟩ := List.mem_flatMap.1 hl
    obtain ⟨j, hj', rfl⟩ := List.mem_map.1 hl
    rw [hrow] at hv; cases hv
    have hc : x.2.chi2[zs.idxOf z]? = some (x.2.chi2[zs.idxOf z]'(by rw [(hf x hx).chi2]; exact hi)) := List.getElem?_eq_getElem _
    exact ((g5 x hx _ hc).1).trans ((hleast x hx _ _ hc).2 ⟨i, j, List.mem_range.1 hi', List.mem_range.1 hj', rfl⟩)

/-- **C144**, the redshift of a candidate must be in the grid of the fits: otherwise the lists are read past their end. -/
theorem C144_off_grid_ub {top : ℝ} {m : List (String × TfRes V)} {zs : List ℝ} {z : ℝ} (hm : m ≠ []) (hf : ∀ x ∈ m, Full zs.length x.2) (hz : z ∉ zs) : fittedAt top m zs z = .ub := by
  classical
  cases m with
  | nil => exact absurd rfl hm
  | cons x xs =>
    unfold fittedAt bestTpl
    rw [at_ub (by rw [(hf x (by simp)).chi2, List.idxOf_eq_length_iff.2 hz])]
    rfl

/-- **C144**, when no template has a chi2 below the largest number (infinite for instance) at the redshift of a candidate, no name is found and a null result
is read: undefined behaviour instead of an error. -/
theorem C144_no_template_ub {top : ℝ} {m : List (String × TfRes V)} {zs : List ℝ} {z : ℝ} (hk : Keyed m) (hf : ∀ x ∈ m, Full zs.length x.2) (hz : z ∈ zs) (hn : ∀ x ∈ m, x.1 ≠ "")
    (ht : open Classical in ∀ x ∈ m, ∀ c, x.2.chi2[zs.idxOf z]? = some c → top ≤ c) : fittedAt top m zs z = .ub := by
  classical
  have hi : zs.idxOf z < zs.length := List.idxOf_lt_length_iff.2 hz
  obtain ⟨r, h1, h2, h3, h4⟩ := bestTpl_spec m (top, "") (fun x hx => by rw [(hf x hx).chi2]; exact hi)
  have hr : r = (top, "") := by
    rcases h4 with h | ⟨p, x, q, e1, e2, e3, e4, e5⟩
    · exact h
    · exact absurd (ht x (by rw [e1]; simp) _ e3) (not_le.2 e4)
  unfold fittedAt
  rw [h1, Res.bind_ok, hr]
  have : findRes m "" = .ub := by
    unfold findRes
    cases hq : mapFind "" m with
    | none => rfl
    | some v => exact absurd rfl (hn _ ((mapFind_mem hk "" v).1 hq))
  rw [this]
  rfl

theorem C144_no_template_counterexample : fittedAt (V := Unit) 100 [("a", oneRes () 5 200)] [0] 0 = .ub := by
  classical
  refine C144_no_template_ub ?_ ?_ (by simp) (by simp) ?_
  · simp [Keyed]
  · intro x hx; simp at hx; subst hx; constructor <;> rfl
  · intro x hx c hc
    simp at hx; subst hx
    simp [oneRes] at hc; subst hc; norm_num

/-- **C144** From the merits to the parameters: every candidate that the PDF operator gives from the merits of template fitting gets the parameters of a
template: no candidate is off the grid. -/
theorem C144_pipeline {top c : ℝ} {zs : List ℝ} {size : String → Nat × Nat} {m : List (String × TfRes V)} {cfg : PdfOp.Cfg} {sorter : List (Option ℝ) → List Nat}
    {zsorter : List (Candidates.Cand ℝ) → List (Candidates.Cand ℝ)} {a : Pdfz.ChisquareArray} {p : List ℝ} {found : List (String × PdfOp.Found)} {model : ℝ → Fitted V → Res M}
    (hm : m ≠ []) (hk : Keyed m) (hr : Results zs size m) (hf : ∀ x ∈ m, Full zs.length x.2) (hcst : ∀ x ∈ m, x.2.cstLog = c)
    (ht : ∀ k, k < zs.length → ∃ x ∈ m, ∃ c, x.2.chi2[k]? = some c ∧ c < top) (hmod : ∀ z f, ∃ s, model z f = .ok s)
    (hsort : ∀ l, (zsorter l).Perm l) (hz : Pdfz.Grid zs) (hmax : cfg.maxCand ≠ 0) (ha : tfArray top m = .ok a)
    (hp : Pdfz.combinePdf cfg.opt a = .ok p) (hs : PdfOp.search cfg sorter zs p (PdfOp.windows [] []) = .ok found) :
    ∃ out l, PdfOp.compute cfg sorter zsorter (.ok zs) a [] [] = .ok out ∧ out ≠ [] ∧ tfExtrema top model m (out.map PdfOp.Out.z) = .ok l ∧ l.length = out.length := by
  have hzne : zs ≠ [] := by have := hz.two; rintro rfl; simp at this
  obtain ⟨a', e1, e2, -⟩ := C143_array (top := top) hzne hm hr hcst
  rw [ha] at e1; cases e1
  subst e2
  obtain ⟨out, h1, h2, h3, -, -, -, -, -, h9⟩ := PdfOp.C140_candidates (zsorter := zsorter) (rs := []) (ids := []) hsort rfl hz hmax hp hs
  obtain ⟨l, g1, g2, -⟩ := C144_extrema_partial (top := top) (model := model) (cands := out.map PdfOp.Out.z) hm hk (fun x hx => ⟨hr.grid x hx, hf x hx⟩)
    (by intro z hz'; obtain ⟨o, ho, rfl⟩ := List.mem_map.1 hz'; exact (h9 o ho).1) ht hmod
  exact ⟨out, l, h1, h3, g1, by rw [g2, List.length_map]⟩

/-- The hypotheses of `C144_fitted` are met by two templates, of which the second one is better. -/
example : ∃ f, fittedAt (V := Unit) 100 [("a", oneRes () 5 7), ("b", oneRes () 5 4)] [0] 0 = .ok f ∧ f.name = "b" := by
  classical
  have hf : ∀ x ∈ [("a", oneRes () 5 7), ("b", oneRes () 5 4)], Full (V := Unit) 1 x.2 := by
    intro x hx; simp at hx; rcases hx with rfl | rfl <;> constructor <;> rfl
  have hk : Keyed [("a", oneRes (V := Unit) () 5 7), ("b", oneRes () 5 4)] := by
    simp only [Keyed, List.pairwise_cons, List.mem_singleton, forall_eq, List.not_mem_nil, false_imp_iff, implies_true, List.Pairwise.nil, and_true]
    decide
  obtain ⟨f, r, h1, -, h3, h4, h5⟩ := C144_fitted (top := 100) (zs := [0]) (z := 0) hk hf (by simp) ⟨("b", oneRes () 5 4), by simp, 4, by simp [oneRes], by norm_num⟩
  refine ⟨f, h1, ?_⟩
  simp only [List.mem_cons, Prod.mk.injEq, List.not_mem_nil, or_false] at h3
  rcases h3 with ⟨hn, rfl⟩ | ⟨hn, -⟩
  · exfalso
    have h6 := h4.merit
    have h7 := (h5 ("b", oneRes () 5 4) (by simp) 4 (by simp [oneRes])).1
    simp [oneRes] at h6
    rw [← h6] at h7
    norm_num at h7
  · exact hn

/-- **C144** The parameters of the candidates of template combination are those of the fit at their redshift. -/
theorem C144_combination {r : TcRes V C} {z : ℝ} {n : Nat} (hz : z ∈ r.redshifts) (hn : r.redshifts.length = n)
    (hl : r.chi2.length = n ∧ r.chi2Phot.length = n ∧ r.meiksin.length = n ∧ r.ebmv.length = n ∧ r.ampls.length = n ∧ r.amplErrs.length = n ∧ r.amplSigmas.length = n ∧
      r.cov.length = n ∧ r.snr.length = n) :
    open Classical in
    ∃ f, tcFittedAt r z = .ok f ∧ r.redshifts[r.redshifts.idxOf z]? = some z ∧ r.chi2[r.redshifts.idxOf z]? = some f.merit ∧ r.chi2Phot[r.redshifts.idxOf z]? = some f.meritPhot ∧
      r.meiksin[r.redshifts.idxOf z]? = some f.meiksin ∧ r.ebmv[r.redshifts.idxOf z]? = some f.ebmv ∧ r.ampls[r.redshifts.idxOf z]? = some f.ampls ∧
      r.amplErrs[r.redshifts.idxOf z]? = some f.amplErrs ∧ r.amplSigmas[r.redshifts.idxOf z]? = some f.amplSigmas ∧ r.cov[r.redshifts.idxOf z]? = some f.cov ∧
      r.snr[r.redshifts.idxOf z]? = some f.snr := by
  classical
  have hi : r.redshifts.idxOf z < n := by rw [← hn]; exact List.idxOf_lt_length_iff.2 hz
  obtain ⟨l1, l2, l3, l4, l5, l6, l7, l8, l9⟩ := hl
  have g : ∀ {A : Type} (l : List A), l.length = n → ∃ a, l[r.redshifts.idxOf z]? = some a := fun l hl => ⟨l[r.redshifts.idxOf z]'(by omega), List.getElem?_eq_getElem (by omega)⟩
  obtain ⟨a1, e1⟩ := g _ l1
  obtain ⟨a2, e2⟩ := g _ l2
  obtain ⟨a3, e3⟩ := g _ l3
  obtain ⟨a4, e4⟩ := g _ l4
  obtain ⟨a5, e5⟩ := g _ l5
  obtain ⟨a6, e6⟩ := g _ l6
  obtain ⟨a7, e7⟩ := g _ l7
  obtain ⟨a8, e8⟩ := g _ l8
  obtain ⟨a9, e9⟩ := g _ l9
  unfold tcFittedAt
  rw [at_some e1, Res.bind_ok, at_some e2, Res.bind_ok, at_some e3, Res.bind_ok, at_some e4, Res.bind_ok, at_some e5, Res.bind_ok, at_some e6, Res.bind_ok,
    at_some e7, Res.bind_ok, at_some e8, Res.bind_ok, at_some e9, Res.bind_ok]
  exact ⟨_, rfl, (List.getElem?_eq_getElem (by omega)).trans (by simp), e1, e2, e3, e4, e5, e6, e7, e8, e9⟩

/-- **C144** All the candidates of template combination, in order. -/
theorem C144_combination_extrema {model : ℝ → TcFitted V C → Res M} {r : TcRes V C} {cands : List ℝ} {l : List (TcFitted V C × M)} (h : tcExtrema model r cands = .ok l) :
    r.chi2.length = r.redshifts.length ∧ l.length = cands.length ∧ ∀ (i : Nat) (hi : i < cands.length), ∃ f s, l[i]? = some (f, s) ∧ tcFittedAt r cands[i] = .ok f ∧ model cands[i] f = .ok s := by
  unfold tcExtrema at h
  split_ifs at h with h0
  refine ⟨not_not.1 h0, Res.tab_length _ h, ?_⟩
  intro i hi
  obtain ⟨a, ha, hg⟩ := Res.tab_get _ h i hi
  rw [Res.at_of_lt hi, Res.bind_ok] at hg
  obtain ⟨f, h1, hg⟩ := Res.bind_eq_ok.1 hg
  obtain ⟨s, h2, hg⟩ := Res.bind_eq_ok.1 hg
  cases hg
  exact ⟨f, s, ha, h1, h2⟩

end TplSolve
end Amazed
