import Verif.Model.SvdLc
import Verif.Props.SvdFitEx
import Verif.Props.SpcModelResidual
import Verif.Props.RangeProps

set_option linter.unusedVariables false
set_option linter.unusedSectionVars false

/-! # Joint fit of the lines and of the continuum (C156) -/

namespace Amazed
namespace SvdLc
open Amp (SameElt)
open SvdFit (Env Row Solver mapL colVal setAmp setFitted setMany setMany_total foldL_setMany fitted fitted_fst setFitted_setMany mapL_ok getD_of dot dot_append wss Exact
  unitAt unitFlux modelAll_unit NomOk)

variable {K G : Type} [Field K] [LinearOrder K] [IsStrictOrderedRing K] [LinearOrder G]

/-! ## Specification -/

/-- The joint model at sample `p`: the elements of `idx` with amplitudes `a`, the template `A` times, and a polynomial of the wavelength with coefficients
`q`. An absorption line takes its fraction of the template of amplitude 1. -/
def joint (env : Env K G) (tpl : List K) (st : List (Amp.Elt K)) (idx : List Nat) (po : Int) (a : Nat → K) (A : K) (q : Nat → K) (p : Nat) : K :=
  (∑ k ∈ Finset.range idx.length, a k * unitAt { env with cont := tpl } st p (idx.getD k 0)) + A * tpl.getD p 0 +
    ∑ k ∈ Finset.range (nPoly po), q k * env.axis.getD p 0 ^ k

/-- Its chi-square on the samples `i, …, j`. -/
def chi2 (env : Env K G) (tpl : List K) (st : List (Amp.Elt K)) (idx : List Nat) (po : Int) (ij : Nat × Nat) (a : Nat → K) (A : K) (q : Nat → K) : K :=
  ((List.range' ij.1 (ij.2 - ij.1 + 1)).map fun p => ((env.flux.getD p 0 - joint env tpl st idx po a A q p) / env.err.getD p 0) ^ 2).sum

/-- The fit is given consistent vectors: an increasing axis, one value per sample, no null error, well formed elements with the number of lines of
their supports. -/
structure Ok (env : Env K G) (st : List (Amp.Elt K)) : Prop where
  axis : env.axis.Pairwise (· < ·)
  flux : env.flux.length = env.axis.length
  err : env.err.length = env.axis.length
  err0 : ∀ s ∈ env.err, s ≠ 0
  elts : env.es.length = st.length
  wf : ∀ pe ∈ st, Amp.WF pe
  nom : NomOk st
  lines : ∀ (i : Nat) e pe, env.es[i]? = some e → st[i]? = some pe → e.sup.n = pe.lines.length

/-! ## The normalisation -/

/-- The largest absolute value of a range of samples: at least all of them, and one of them. -/
theorem maxAbs_spec (l : List K) (i j : Nat) (hij : i ≤ j) (hj : j < l.length) :
    ∃ m, Flux.maxAbs l i j = .ok m ∧ (∀ p : Nat, i ≤ p → p ≤ j → |l.getD p 0| ≤ m) ∧ ∃ p : Nat, i ≤ p ∧ p ≤ j ∧ m = |l.getD p 0| := by
  have key : ∀ (xs : List K) (x : K), (∀ y ∈ x :: xs, |y| ≤ |xs.foldl (fun a b => if |a| < |b| then b else a) x|) ∧
      xs.foldl (fun a b => if |a| < |b| then b else a) x ∈ x :: xs := by
    intro xs
    induction xs with
    | nil => intro x; simp
    | cons z xs ih =>
      intro x
      obtain ⟨h1, h2⟩ := ih (if |x| < |z| then z else x)
      rw [List.foldl_cons]
      have hx := h1 _ List.mem_cons_self
      refine ⟨fun y hy => ?_, ?_⟩
      · rcases List.mem_cons.1 hy with rfl | hy
        · refine le_trans ?_ hx
          split
          · rename_i h; exact h.le
          · exact le_rfl
        · rcases List.mem_cons.1 hy with rfl | hy
          · refine le_trans ?_ hx
            split
            · exact le_rfl
            · rename_i h; exact not_lt.1 h
          · exact h1 y (List.mem_cons_of_mem _ hy)
      · rcases List.mem_cons.1 h2 with h | h
        · rw [h]
          split
          · simp
          · simp
        · exact List.mem_cons_of_mem _ (List.mem_cons_of_mem _ h)
  have hs : Flux.slice l (i : Int) (j : Int) = .ok ((l.drop i).take (j + 1 - i)) := by
    unfold Flux.slice
    rw [if_neg (by push Not; refine ⟨by omega, by omega, by omega⟩)]
    congr 2
    omega
  have hmem : ∀ y, y ∈ (l.drop i).take (j + 1 - i) ↔ ∃ p : Nat, i ≤ p ∧ p ≤ j ∧ y = l.getD p 0 := by
    intro y
    rw [List.mem_iff_getElem]
    constructor
    · rintro ⟨k, hk, rfl⟩
      simp at hk
      refine ⟨i + k, by omega, by omega, ?_⟩
      rw [getD_of (by omega)]
      simp
    · rintro ⟨p, h1, h2, rfl⟩
      refine ⟨p - i, by simp; omega, ?_⟩
      rw [getD_of (by omega)]
      simp [show i + (p - i) = p by omega]
  unfold Flux.maxAbs
  rw [hs, Res.bind_ok]
  cases hl : (l.drop i).take (j + 1 - i) with
  | nil =>
    exfalso
    have := congrArg List.length hl
    simp at this
    omega
  | cons x xs =>
    obtain ⟨k1, k2⟩ := key xs x
    rw [← hl] at k1 k2
    refine ⟨_, rfl, fun p h1 h2 => k1 _ ((hmem _).2 ⟨p, h1, h2, rfl⟩), ?_⟩
    obtain ⟨p, h1, h2, h3⟩ := (hmem _).1 k2
    exact ⟨p, h1, h2, by rw [h3]⟩

/-! ## The linear system -/

/-- The equation of a sample, from the specification. -/
def specRow (env : Env K G) (tpl : List K) (st : List (Amp.Elt K)) (idx : List Nat) (po : Int) (norm : K) (p : Nat) : Row K :=
  ⟨idx.map (unitAt { env with cont := tpl } st p) ++ ([tpl.getD p 0] ++ (List.range (nPoly po)).map fun k => env.axis.getD p 0 ^ k), env.flux.getD p 0 * norm,
    1 / (env.err.getD p 0 * norm * (env.err.getD p 0 * norm))⟩

theorem dot_map (f : Nat → K) (n : Nat) (c : Nat → K) : dot ((List.range n).map f) c = ∑ k ∈ Finset.range n, c k * f k := by
  unfold dot
  rw [List.length_map, List.length_range]
  refine Finset.sum_congr rfl fun k hk => ?_
  rw [mul_comm]
  congr 1
  rw [List.getD_eq_getElem?_getD, List.getElem?_map, List.getElem?_range (Finset.mem_range.1 hk)]
  rfl

theorem dot_spec (env : Env K G) (tpl : List K) (st : List (Amp.Elt K)) (idx : List Nat) (po : Int) (norm : K) (p : Nat) (c : Nat → K) :
    dot (specRow env tpl st idx po norm p).x c = joint env tpl st idx po c (c idx.length) (fun k => c (idx.length + (1 + k))) p := by
  unfold specRow joint
  simp only
  rw [dot_append, dot_append, dot_map, add_assoc]
  congr 1
  · unfold dot
    rw [List.length_map]
    refine Finset.sum_congr rfl fun k hk => ?_
    rw [Finset.mem_range] at hk
    rw [mul_comm]
    congr 1
    simp only [List.getD_eq_getElem?_getD, List.getElem?_map, List.getElem?_eq_getElem hk, Option.map_some, Option.getD_some]
  · rw [List.length_map]
    simp [dot, mul_comm]

theorem wss_chi2 (env : Env K G) (tpl : List K) (st : List (Amp.Elt K)) (idx : List Nat) (po : Int) (norm : K) (hnorm : 0 < norm) (ij : Nat × Nat)
    (he : ∀ p ∈ List.range' ij.1 (ij.2 - ij.1 + 1), env.err.getD p 0 ≠ 0) (a : Nat → K) (A : K) (q : Nat → K) (c : Nat → K)
    (hc : ∀ k, k < idx.length → c k = a k * norm) (hA : c idx.length = A * norm) (hq : ∀ k, k < nPoly po → c (idx.length + (1 + k)) = q k * norm) :
    wss ((List.range' ij.1 (ij.2 - ij.1 + 1)).map (specRow env tpl st idx po norm)) c = chi2 env tpl st idx po ij a A q := by
  unfold wss chi2
  rw [List.map_map]
  congr 1
  apply List.map_congr_left
  intro p hp
  have hs := he p hp
  simp only [Function.comp]
  rw [dot_spec]
  have : joint env tpl st idx po c (c idx.length) (fun k => c (idx.length + (1 + k))) p = norm * joint env tpl st idx po a A q p := by
    unfold joint
    rw [mul_add, mul_add, Finset.mul_sum, Finset.mul_sum, hA]
    congr 1
    · congr 1
      · refine Finset.sum_congr rfl fun k hk => ?_
        rw [hc k (Finset.mem_range.1 hk)]; ring
      · ring
    · refine Finset.sum_congr rfl fun k hk => ?_
      simp only
      rw [hq k (Finset.mem_range.1 hk)]; ring
  rw [this]
  unfold specRow
  simp only
  have hn := hnorm.ne'
  field_simp

/-! ## The linear fit -/

theorem linSolve_spec (env : Env K G) (solve : Solver K) (hsolve : Exact solve) (tpl : List K) (lr : Range K) (po : Int) (idx : List Nat)
    (st : List (Amp.Elt K)) (hok : Ok env st) (htpl : tpl.length = env.axis.length) (hin : ∀ i ∈ idx, i < st.length) (hnd : idx.Nodup) (hne : idx ≠ [])
    {ij : Nat × Nat} (hr : Range.closedIdx lr env.axis = .ok ij) (hn : idx.length + 1 + (po + 1).toNat ≤ ij.2 - ij.1 + 1)
    (hflux : ∃ p : Nat, ij.1 ≤ p ∧ p ≤ ij.2 ∧ env.flux.getD p 0 ≠ 0) :
    ∃ o, linSolve env solve tpl lr po idx st = .ok o ∧ o.amps.length = idx.length + 1 + (po + 1).toNat ∧ o.errs.length = o.amps.length ∧
      (∀ a A q, chi2 env tpl st idx po ij (fun k => o.amps.getD k 0) (o.amps.getD idx.length 0) (fun k => o.amps.getD (idx.length + 1 + k) 0) ≤
        chi2 env tpl st idx po ij a A q) ∧
      (∀ (j : Nat), j ∉ idx → o.st[j]? = st[j]?) ∧
      ∀ (k i : Nat), idx[k]? = some i → ∃ pe pe', st[i]? = some pe ∧ o.st[i]? = some pe' ∧
        Amp.setAmplitude pe (some (o.amps.getD k 0)) (some (o.errs.getD k 0)) = .ok pe' := by
  obtain ⟨hij, hj, -⟩ := (C03_closed lr env.axis hok.axis).1 ij.1 ij.2 hr
  have hes : ∀ i ∈ idx, i < env.es.length := fun i hi => by rw [hok.elts]; exact hin i hi
  have hpin : ∀ p ∈ List.range' ij.1 (ij.2 - ij.1 + 1), p < env.axis.length := by
    intro p hp
    rw [List.mem_range'_1] at hp
    omega
  obtain ⟨st1, s1, s2, s3, s4, s5⟩ := setMany_total (idx.map fun i => (i, (some 1 : Option K), (some 0 : Option K))) st
    (by simpa [Function.comp_def] using hnd)
    (by intro v hv; obtain ⟨i, hi, rfl⟩ := List.mem_map.1 hv; exact hin i hi) hok.wf
  obtain ⟨mx, m1, m2, m3⟩ := maxAbs_spec env.flux ij.1 ij.2 hij (by rw [hok.flux]; exact hj)
  have hmx : 0 < mx := by
    obtain ⟨p, h1, h2, h3⟩ := hflux
    exact lt_of_lt_of_le (abs_pos.2 h3) (m2 p h1 h2)
  have hnorm : 0 < 1 / mx := one_div_pos.2 hmx
  have herr : ∀ p ∈ List.range' ij.1 (ij.2 - ij.1 + 1), env.err.getD p 0 ≠ 0 := by
    intro p hp
    have hl : p < env.err.length := by rw [hok.err]; exact hpin p hp
    rw [getD_of hl]
    exact hok.err0 _ (List.getElem_mem _)
  have hrows : mapL (row env tpl st1 idx po (1 / mx)) (List.range' ij.1 (ij.2 - ij.1 + 1)) =
      .ok ((List.range' ij.1 (ij.2 - ij.1 + 1)).map (specRow env tpl st idx po (1 / mx))) := by
    apply mapL_ok
    intro p hp
    have ha := hpin p hp
    have hf : p < env.flux.length := by rw [hok.flux]; exact ha
    have he : p < env.err.length := by rw [hok.err]; exact ha
    have hc : p < tpl.length := by rw [htpl]; exact ha
    have hcols : mapL (colVal env st1 env.axis[p] tpl[p]) idx = .ok (idx.map (unitAt { env with cont := tpl } st p)) := by
      apply mapL_ok
      intro i hi
      obtain ⟨pe, pe', e1, e2, e3, e4⟩ := s5 (i, some 1, some 0) (List.mem_map.2 ⟨i, hi, rfl⟩)
      simp only at e1 e2 e3
      have hie := hes i hi
      unfold colVal
      rw [Res.at_of_lt hie, Res.bind_ok, Res.at_eq_ok.2 e3, Res.bind_ok]
      have hpe := List.mem_of_getElem? e1
      rw [modelAll_unit env.es[i].sup (env.prof i) _ _ (hok.wf pe hpe) (hok.nom pe hpe)
        (hok.lines i env.es[i] pe (List.getElem?_eq_getElem hie) e1) (some 0) e2]
      unfold unitAt
      simp only
      rw [List.getElem?_eq_getElem hie, e1, getD_of ha, getD_of hc]
    unfold row
    rw [Res.at_of_lt ha, Res.bind_ok, Res.at_of_lt hc, Res.bind_ok, hcols, Res.bind_ok, Res.at_of_lt hf, Res.bind_ok, Res.at_of_lt he, Res.bind_ok]
    simp only
    have hs := herr p hp
    rw [getD_of he] at hs
    rw [if_neg (mul_ne_zero hs hnorm.ne')]
    unfold specRow
    rw [getD_of ha, getD_of hf, getD_of he, getD_of hc]
  have hw : ∀ r ∈ (List.range' ij.1 (ij.2 - ij.1 + 1)).map (specRow env tpl st idx po (1 / mx)), 0 < r.w := by
    intro r hr
    obtain ⟨p, hp, rfl⟩ := List.mem_map.1 hr
    unfold specRow
    simp only
    exact one_div_pos.2 (mul_self_pos.2 (mul_ne_zero (herr p hp) hnorm.ne'))
  have hmin := hsolve _ hw
  obtain ⟨sol, hsol⟩ : ∃ sol, sol = solve ((List.range' ij.1 (ij.2 - ij.1 + 1)).map (specRow env tpl st idx po (1 / mx))) := ⟨_, rfl⟩
  rw [← hsol] at hmin
  obtain ⟨st2, t1, t2, t3, t4, t5⟩ := setMany_total (fitted (1 / mx) sol env.sq 0 idx) st1
    (by rw [fitted_fst]; exact hnd)
    (by
      intro v hv
      have : v.1 ∈ (fitted (1 / mx) sol env.sq 0 idx).map (·.1) := List.mem_map.2 ⟨v, hv, rfl⟩
      rw [fitted_fst] at this
      rw [s2]; exact hin _ this) s3
  have hlen : 1 ≤ idx.length := List.length_pos_of_ne_nil hne
  have hget : ∀ (f : Nat → K) (k : Nat), k < nddl idx po → ((List.range (nddl idx po)).map f).getD k 0 = f k := by
    intro f k hk
    rw [List.getD_eq_getElem?_getD, List.getElem?_map, List.getElem?_range hk]
    rfl
  refine ⟨⟨(List.range (nddl idx po)).map fun k => sol.1 k / (1 / mx), (List.range (nddl idx po)).map fun k => env.sq (sol.2 k) / (1 / mx), st2⟩,
    ?_, by simp [nddl, nPoly], by simp, ?_, ?_, ?_⟩
  · unfold linSolve
    rw [if_neg (by omega), hr, Res.bind_ok, if_neg (by unfold nddl nPoly; omega), foldL_setMany, s1, Res.bind_ok, m1, Res.bind_ok, if_neg hmx.ne']
    simp only
    rw [hrows, Res.bind_ok, ← hsol, setFitted_setMany, t1, Res.bind_ok]
  · intro a A q
    have h1 := hmin (fun k => if k < idx.length then a k * (1 / mx) else if k = idx.length then A * (1 / mx) else q (k - idx.length - 1) * (1 / mx))
    have h2 := wss_chi2 env tpl st idx po (1 / mx) hnorm ij herr a A q
      (fun k => if k < idx.length then a k * (1 / mx) else if k = idx.length then A * (1 / mx) else q (k - idx.length - 1) * (1 / mx))
      (fun k hk => by simp only [if_pos hk])
      (by simp) (fun k hk => by
        rw [if_neg (by omega), if_neg (by omega), show idx.length + (1 + k) - idx.length - 1 = k by omega])
    rw [h2] at h1
    have hl : ∀ k, sol.1 k = sol.1 k / (1 / mx) * (1 / mx) := fun k => (div_mul_cancel₀ _ hnorm.ne').symm
    rw [wss_chi2 env tpl st idx po (1 / mx) hnorm ij herr
      (fun k => ((List.range (nddl idx po)).map fun k => sol.1 k / (1 / mx)).getD k 0)
      (((List.range (nddl idx po)).map fun k => sol.1 k / (1 / mx)).getD idx.length 0)
      (fun k => ((List.range (nddl idx po)).map fun k => sol.1 k / (1 / mx)).getD (idx.length + 1 + k) 0) _
      (fun k hk => by rw [hget _ _ (by unfold nddl; omega)]; exact hl k)
      (by rw [hget _ _ (by unfold nddl; omega)]; exact hl _)
      (fun k hk => by rw [hget _ _ (by unfold nddl; omega), show idx.length + (1 + k) = idx.length + 1 + k by omega]; exact hl _)] at h1
    exact h1
  · intro j hj
    rw [t4 j (by rw [fitted_fst]; exact hj), s4 j (by simpa [Function.comp_def] using hj)]
  · intro k i hk
    have hkl := (List.getElem?_eq_some_iff.1 hk).1
    have hmem : (i, some (sol.1 (0 + k) / (1 / mx)), some (env.sq (sol.2 (0 + k)) / (1 / mx))) ∈ fitted (1 / mx) sol env.sq 0 idx := by
      unfold fitted
      rw [List.mem_iff_getElem?]
      exact ⟨k, by rw [List.getElem?_mapIdx, hk]; rfl⟩
    obtain ⟨pe1, pe', e1, e2, e3, e4⟩ := t5 _ hmem
    simp only [Nat.zero_add] at e1 e2 e3
    obtain ⟨pe, pe1', d1, d2, d3, d4⟩ := s5 (i, some 1, some 0) (List.mem_map.2 ⟨i, List.mem_of_getElem? hk, rfl⟩)
    simp only at d1 d2 d3
    rw [d3] at e1; cases e1
    refine ⟨pe, pe', d1, e3, ?_⟩
    rw [hget _ _ (by unfold nddl; omega), hget _ _ (by unfold nddl; omega), ← SvdFit.setAmplitude_same d4]
    exact e2

end SvdLc
end Amazed
