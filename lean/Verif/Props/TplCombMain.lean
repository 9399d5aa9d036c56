import Verif.Props.TplCombBasic

/-! # Template combination: C134 (fit at one redshift), C135 (amplitudes) -/

set_option linter.unusedSectionVars false
set_option linter.unusedVariables false

namespace Amazed
namespace TplComb

open TplFit

variable {K : Type} [Field K] [LinearOrder K] [IsStrictOrderedRing K]

/-- The problem fitted at redshift `z` between the samples `ij.1` and `ij.2`. -/
def Env.prob (v : Env K) (z : K) (fluxes : List (List K)) (ij : Nat × Nat) : Prob K :=
  ⟨restAxis v.axis z, v.flux, v.err, fluxes, ij.1, ij.2 + 1 - ij.1⟩

/-- The environments of the theorems: a least squares solver, an increasing axis of the size of the spectrum, IGM curves that stop at Lyman alpha at the latest, and
a rebinning that gives one flux for each sample. -/
structure Env.Ok (v : Env K) : Prop where
  wls : IsWls v.solve
  tiny : 0 < v.tiny
  axis : v.axis.Pairwise (· < ·)
  flux : v.flux.length = v.axis.length
  err : v.err.length = v.axis.length
  igmMax : v.c.igmMax ≤ 1216
  reb : ∀ t i l f m, v.reb t i l = .ok (f, m) → f.length = l.length

theorem initAll_inv {op : Opt K} {P : Prob K} {mask : List Nat} {hd hi : Bool} (hok : ∀ b ∈ P.bases, (comp P mask b).Ok) {ss : List (Slot K)}
    (h : initAll op ((P.bases.map (comp P mask)).map (Obs.slot hd hi)) = .ok ss) : SAny op P mask hd hi ss := by
  unfold initAll at h
  by_cases hact : (op.igm || op.dust) = true
  · rw [if_pos hact] at h
    obtain ⟨rr, e1, e2⟩ := Res.bind_eq_ok.1 h
    cases e2
    have hact' : op.dust = true ∨ op.igm = true := by rw [Bool.or_eq_true] at hact; tauto
    refine ⟨-1, (mapSlots_ok (R := fun o s => s = o.slot hd hi) (R' := fun o s => ∃ kd, Rel op hd hi o kd (-1) s) (Q := fun _ _ => True)
      (bs := rr.1) (ss' := rr.2) ?_ (forall2_slots _ (fun o _ => rfl)) e1).1⟩
    rintro o ho s b s' rfl hf
    obtain ⟨b', hb', rfl⟩ := List.mem_map.1 ho
    have := initSlot_inv (hok b' hb') hact' hf
    simp only [Bool.or_false] at this
    exact ⟨⟨-1, this⟩, trivial⟩
  · rw [if_neg hact] at h
    cases h
    have hact' : ¬ (op.dust = true ∨ op.igm = true) := by rw [Bool.or_eq_true] at hact; tauto
    refine ⟨-1, forall2_slots _ (fun o ho => ⟨-1, ?_⟩)⟩
    obtain ⟨b', hb', rfl⟩ := List.mem_map.1 ho
    have h0 := Tpl.inv_make op.c (comp P mask b').axis (comp P mask b').base hd hi (hok b' hb').base_len
    refine ⟨rfl, rfl, rfl, rfl, rfl, ?_, fun _ => rfl, fun _ => rfl, fun _ hx => by omega⟩
    rw [if_neg hact']; exact h0

theorem restAxis_sorted {axis : List K} {z : K} (hz : 0 < 1 + z) (h : axis.Pairwise (· < ·)) : (restAxis axis z).Pairwise (· < ·) := by
  unfold restAxis
  rw [List.pairwise_map]
  exact h.imp (fun hab => div_lt_div_of_pos_right hab hz)

/-- The part of the fit after the rebinning. -/
theorem fitSlots_spec {v : Env K} (hv : v.Ok) {z lo : K} (hz : 0 ≤ z) {mask : List Nat} (hm : mask.length = v.axis.length) {ij : Nat × Nat} {fluxes : List (List K)}
    (hne : fluxes ≠ []) (hf : ∀ f ∈ fluxes, f.length = v.axis.length) (h1 : ij.1 ≤ ij.2) (h2 : ij.2 < v.axis.length) (hlo : lo ≤ (restAxis v.axis z).getD ij.1 0)
    {r : Result K} (h : fitSlots v z lo ij (v.slots z mask ij fluxes) = .ok r) :
    FitTable (v.op z) (v.prob z fluxes ij) r ∧
      (∃ k i l, v.ebmv.getLast? = some k ∧ v.meiksin.getLast? = some i ∧ r.last = some l ∧ LastOk (v.op z) (v.prob z fluxes ij) k i l) := by
  unfold fitSlots at h
  obtain ⟨ss, h3, h⟩ := Res.bind_eq_ok.1 h
  obtain ⟨u, -, h⟩ := Res.bind_eq_ok.1 h
  by_cases hE : v.ebmv = []
  · rw [if_pos hE] at h; cases h
  rw [if_neg hE] at h
  obtain ⟨norm, h4, h⟩ := Res.bind_eq_ok.1 h
  obtain ⟨data, h5, h⟩ := Res.bind_eq_ok.1 h
  obtain ⟨r', h6, h7⟩ := Res.bind_eq_ok.1 h
  have hr : r' = r := by
    split at h7
    · cases h7
    · cases h7; rfl
  subst hr
  have hmne : 0 < v.meiksin.length := by
    by_contra hc
    have hm : v.meiksin.length = 0 := by omega
    rw [hm] at h6
    simp only [igmLoop, Res.ok.injEq] at h6
    have hb : r'.best = none := by rw [← h6]
    rw [hb] at h7
    cases h7
  have hpz : (0 : K) < 1 + z := by linarith
  have hnorm := (normFactor_pos hv.tiny _ h4).1
  set P := v.prob z fluxes ij with hP
  have hlen : P.rest.length = v.axis.length := by simp [hP, Env.prob, restAxis]
  have hsort : P.rest.Pairwise (· < ·) := restAxis_sorted hpz hv.axis
  have hPn : P.n = ij.2 + 1 - ij.1 := rfl
  have hPp : P.p = ij.1 := rfl
  have hdata : Res.tab (datum P.flux P.err norm P.p) P.n = .ok data := h5
  have herr := fun i hi => ((datum_get hdata).2 i hi).1
  have hok : ∀ b ∈ P.bases, (comp P mask b).Ok := by
    intro b hb
    refine ⟨hsort.imp le_of_lt, (hf b hb).trans hlen.symm, hv.flux.trans hlen.symm, hv.err.trans hlen.symm, hm.trans hlen.symm, ?_, ?_, ?_⟩
    · simp only [comp]; omega
    · simp only [comp]; omega
    · intro j j1 j2 e he
      simp only [comp] at j1 j2 he
      have := herr (j - P.p) (by omega)
      rw [show P.p + (j - P.p) = j by omega, List.getD_eq_getElem?_getD, he] at this
      exact this
  have hslots : v.slots z mask ij fluxes = (P.bases.map (comp P mask)).map (Obs.slot v.hasDust v.hasIgm) := by
    unfold Env.slots
    rw [List.map_map]
    apply List.map_congr_left
    intro f _
    simp only [Function.comp, comp, Obs.slot, hP, Env.prob]
    rw [show ij.1 + (ij.2 + 1 - ij.1) - 1 = ij.2 by omega]
  rw [hslots] at h3
  have hS := initAll_inv hok h3
  have hlo' : 1216 < lo / (1 + (v.op z).z) → ¬ Affected (v.op z) P := by
    intro hx hA
    have e1 : (v.op z).z = z := rfl
    rw [e1, lt_div_iff₀ hpz] at hx
    have h8 : P.rest.getD P.p 0 ≤ v.c.igmMax := hA.2
    have h9 : lo ≤ P.rest.getD P.p 0 := hlo
    have := hv.igmMax
    nlinarith
  classical
  refine igmLoop_inv (A := decide (Affected (v.op z) P)) hv.wls hnorm (by rw [hPn]; omega) hdata hok (hsort.imp le_of_lt) (by omega) hne hlo' hE (by simp) v.meiksin.length
    0 false _ r' (by simp [Env.op]) (by omega) hS ?_ (by simp) (fun _ => Or.inl rfl) h6
  refine ⟨by simp [Env.op], ?_, ?_, Or.inl ⟨rfl, rfl, rfl⟩, Or.inl ⟨rfl, rfl⟩⟩
  · intro row hrow
    rw [List.eq_of_mem_replicate hrow, List.length_replicate]
    rfl
  · intro a b _ hb
    unfold Before at hb; omega

theorem rebinned_len {v : Env K} (hv : v.Ok) {rest : List K} {r : Range K} {thr : K} {tpls : List (Tp K)} {fluxes : List (List K)}
    (h : RebinnedBy v.reb rest r thr tpls fluxes) : ∀ f ∈ fluxes, f.length = rest.length := by
  intro f hf
  unfold RebinnedBy at h
  induction h with
  | nil => simp at hf
  | cons h1 _ ih =>
    obtain ⟨inter, m, ov, g1, -⟩ := h1
    rcases List.mem_cons.1 hf with rfl | hf
    · exact hv.reb _ _ _ _ _ g1
    · exact ih hf

/-- **C134** Whenever the combination fit at a redshift returns, its problem is the fit of the templates rebinned on the rest frame axis of the spectrum (`C133_range`), on the
samples in the range common to all of them; its table has, for each pair of extinction indices, the least chi2 over all the amplitudes of the templates; and the reported
chi2, E(B-V) and IGM index are those of the first pair with the least chi2 of the table. The overlap fraction is the one of the last template. -/
theorem C134_fit {v : Env K} (hv : v.Ok) {lr : Range K} {thr z : K} (hz : 0 ≤ z) {mask : List Nat} {ov : Option K} {r : Result K}
    (h : basicFit v lr thr mask z = .ok (ov, r)) :
    ∃ rb ij, rebinTemplates v.reb v.axis v.tpls z lr thr = .ok rb ∧ ov = rb.overlap ∧
      (∀ (j : Nat) (x : K), (restAxis v.axis z)[j]? = some x → (ij.1 ≤ j ∧ j ≤ ij.2 ↔ rb.range.Mem x)) ∧ ij.1 ≤ ij.2 ∧ ij.2 < v.axis.length ∧
      FitTable (v.op z) (v.prob z rb.fluxes ij) r ∧
      (∃ k i l, v.ebmv.getLast? = some k ∧ v.meiksin.getLast? = some i ∧ r.last = some l ∧ LastOk (v.op z) (v.prob z rb.fluxes ij) k i l) := by
  unfold basicFit at h
  by_cases hm : mask.length ≠ v.flux.length
  · rw [if_pos hm] at h; cases h
  rw [if_neg hm] at h
  push Not at hm
  obtain ⟨rb, h1, h⟩ := Res.bind_eq_ok.1 h
  by_cases hne : rb.fluxes = []
  · rw [if_pos hne] at h; cases h
  rw [if_neg hne] at h
  obtain ⟨ij, h2, h⟩ := Res.bind_eq_ok.1 h
  obtain ⟨r', h3, h⟩ := Res.bind_eq_ok.1 h
  cases h
  obtain ⟨hp, q1, -, -, -⟩ := C133_range h1
  have hs := restAxis_sorted hp hv.axis
  obtain ⟨c1, -⟩ := C03_closed rb.range _ hs
  obtain ⟨c2, c3, c4⟩ := c1 ij.1 ij.2 h2
  have hlen : (restAxis v.axis z).length = v.axis.length := by simp [restAxis]
  have hlo : rb.range.b ≤ (restAxis v.axis z).getD ij.1 0 := by
    have := ((c4 ij.1 (by omega)).1 ⟨le_rfl, c2⟩).1
    rw [List.getD_eq_getElem?_getD, List.getElem?_eq_getElem (by omega)]
    exact this
  refine ⟨rb, ij, h1, rfl, fun j x hx => ?_, c2, by omega, fitSlots_spec hv hz (hm.trans hv.flux) hne ?_ c2 (by omega) hlo h3⟩
  · obtain ⟨hj, rfl⟩ := List.getElem?_eq_some_iff.1 hx
    exact c4 j hj
  · intro f hf
    rw [rebinned_len hv q1 f hf, hlen]

/-- **C135** (partial: with several extinction configurations the reported amplitudes are not the ones of the reported configuration, see
`C135_amplitudes_counterexample`). The reported amplitudes are the least squares amplitudes of the last configuration: last E(B-V) and last IGM index; with one configuration
they are the ones of the reported configuration and give the reported chi2. -/
theorem C135_amplitudes_partial {v : Env K} (hv : v.Ok) {lr : Range K} {thr z : K} (hz : 0 ≤ z) {mask : List Nat} {ov : Option K} {r : Result K}
    (h : basicFit v lr thr mask z = .ok (ov, r)) :
    ∃ rb ij k i l, rebinTemplates v.reb v.axis v.tpls z lr thr = .ok rb ∧ v.ebmv.getLast? = some k ∧ v.meiksin.getLast? = some i ∧ r.last = some l ∧
      l.amps.length = rb.fluxes.length ∧ (v.prob z rb.fluxes ij).IsMin (dustFun (v.op z) k) (igmFun (v.op z) i) (fun c => l.amps.getD c 0) ∧
      (v.ebmv = [k] → v.meiksin = [i] → ∃ q, r.best = some q ∧
        q.chi2 = (v.prob z rb.fluxes ij).chi2 (dustFun (v.op z) k) (igmFun (v.op z) i) (fun c => l.amps.getD c 0) ∧ q.ebmv = coeffOf (v.op z) k) := by
  obtain ⟨rb, ij, h1, -, -, -, -, hT, k, i, l, l1, l2, l3, l4, l5⟩ := C134_fit hv hz h
  refine ⟨rb, ij, k, i, l, h1, l1, l2, l3, l4, l5, fun hk hi => ?_⟩
  obtain ⟨a, b, k', i', e, q, b1, b2, b3, b4, b5, b6, -⟩ := hT.best
  have e1 : (v.op z).ebmv = v.ebmv := rfl
  have e2 : (v.op z).meiksin = v.meiksin := rfl
  rw [e1, hk, List.getElem?_singleton] at b1
  rw [e2, hi, List.getElem?_singleton] at b2
  have ha : a = 0 := by by_contra hc; rw [if_neg hc] at b1; cases b1
  have hb : b = 0 := by by_contra hc; rw [if_neg hc] at b2; cases b2
  subst ha; subst hb
  rw [if_pos rfl] at b1 b2
  cases b1; cases b2
  refine ⟨q, b4, ?_, b6⟩
  obtain ⟨e', g1, ⟨amps, g2, g3⟩, -⟩ := hT.entries 0 0 k i (by rw [e1, hk]; rfl) (by rw [e2, hi]; rfl)
  rw [b3] at g1
  cases g1
  rw [b5, ← g3]
  exact le_antisymm (g2 _) (l5 _)

end TplComb
end Amazed
