import Mathlib.Tactic.Linarith
import Verif.Props.TplCombMain

/-! # Template combination: examples and counterexamples, C135 (amplitudes), C137 (one template) -/

set_option linter.unusedSectionVars false
set_option linter.unusedVariables false

namespace Amazed
namespace TplComb

open TplFit

/-! ## A least squares solver for two coefficients -/

variable {K : Type} [Field K] [LinearOrder K] [IsStrictOrderedRing K]

/-- Coefficients that solve the normal equations are the best ones. -/
theorem wss_normal {p : Nat} {rows : List (SvdFit.Row K)} (hw : ∀ r ∈ rows, 0 < r.w) {c : Nat → K}
    (h : ∀ i, i < p → (rows.map fun r => r.w * (r.y - ∑ k ∈ Finset.range p, c k * r.x.getD k 0) * r.x.getD i 0).sum = 0) (c' : Nat → K) :
    wss p rows c ≤ wss p rows c' := by
  set d : Nat → K := fun i => c' i - c i with hd
  have hlin : ∀ l : List (SvdFit.Row K), (∑ i ∈ Finset.range p, d i * (l.map fun r => r.w * (r.y - ∑ k ∈ Finset.range p, c k * r.x.getD k 0) * r.x.getD i 0).sum) =
      (l.map fun r => r.w * (r.y - ∑ k ∈ Finset.range p, c k * r.x.getD k 0) * (∑ i ∈ Finset.range p, d i * r.x.getD i 0)).sum := by
    intro l
    induction l with
    | nil => simp
    | cons r l ih =>
      simp only [List.map_cons, List.sum_cons, mul_add, Finset.sum_add_distrib, ih]
      congr 1
      rw [Finset.mul_sum]
      exact Finset.sum_congr rfl (fun i _ => by ring)
  have h0 : (rows.map fun r => r.w * (r.y - ∑ k ∈ Finset.range p, c k * r.x.getD k 0) * (∑ i ∈ Finset.range p, d i * r.x.getD i 0)).sum = 0 := by
    rw [← hlin]
    exact Finset.sum_eq_zero (fun i hi => by rw [h i (Finset.mem_range.1 hi), mul_zero])
  have hexp : ∀ l : List (SvdFit.Row K), wss p l c' = wss p l c -
      2 * (l.map fun r => r.w * (r.y - ∑ k ∈ Finset.range p, c k * r.x.getD k 0) * (∑ i ∈ Finset.range p, d i * r.x.getD i 0)).sum +
      (l.map fun r => r.w * (∑ i ∈ Finset.range p, d i * r.x.getD i 0) ^ 2).sum := by
    intro l
    unfold wss
    induction l with
    | nil => simp
    | cons r l ih =>
      simp only [List.map_cons, List.sum_cons, ih]
      have : ∑ i ∈ Finset.range p, d i * r.x.getD i 0 = (∑ i ∈ Finset.range p, c' i * r.x.getD i 0) - ∑ i ∈ Finset.range p, c i * r.x.getD i 0 := by
        rw [← Finset.sum_sub_distrib]
        exact Finset.sum_congr rfl (fun i _ => by rw [hd]; ring)
      rw [this]
      ring
  have hnn : 0 ≤ (rows.map fun r => r.w * (∑ i ∈ Finset.range p, d i * r.x.getD i 0) ^ 2).sum := by
    apply List.sum_nonneg
    intro x hx
    obtain ⟨r, hr, rfl⟩ := List.mem_map.1 hx
    exact mul_nonneg (hw r hr).le (sq_nonneg _)
  rw [hexp rows, h0]
  linarith

/-- Sum of products over the equations. -/
def dot (rows : List (SvdFit.Row K)) (f g : SvdFit.Row K → K) : K := (rows.map fun r => r.w * f r * g r).sum

/-- A least squares solver for two coefficients: normal equations, by Cramer's rule. -/
def exSolve : Solver K := fun p rows =>
  let a := dot rows (fun r => r.x.getD 0 0) (fun r => r.x.getD 0 0)
  let b := dot rows (fun r => r.x.getD 0 0) (fun r => r.x.getD 1 0)
  let e := dot rows (fun r => r.x.getD 1 0) (fun r => r.x.getD 1 0)
  let u := dot rows (fun r => r.y) (fun r => r.x.getD 0 0)
  let w := dot rows (fun r => r.y) (fun r => r.x.getD 1 0)
  let det := a * e - b * b
  if p = 2 ∧ det ≠ 0 then
    let c : Nat → K := fun i => if i = 0 then (e * u - b * w) / det else (a * w - b * u) / det
    .ok ⟨c, fun i j => if i = 0 ∧ j = 0 then e / det else if i = 1 ∧ j = 1 then a / det else -b / det, wss 2 rows c⟩
  else .throw .EXTERNAL_LIB_ERROR

theorem exSolve_wls : IsWls (exSolve (K := K)) := by
  intro p rows f hrows h
  unfold exSolve at h
  simp only at h
  by_cases hc : p = 2 ∧ dot rows (fun r => r.x.getD 0 0) (fun r => r.x.getD 0 0) * dot rows (fun r => r.x.getD 1 0) (fun r => r.x.getD 1 0) -
      dot rows (fun r => r.x.getD 0 0) (fun r => r.x.getD 1 0) * dot rows (fun r => r.x.getD 0 0) (fun r => r.x.getD 1 0) ≠ 0
  · rw [if_pos hc] at h
    obtain ⟨rfl, hdet⟩ := hc
    cases h
    refine ⟨rfl, ?_⟩
    set a := dot rows (fun r => r.x.getD 0 0) (fun r => r.x.getD 0 0) with ha
    set b := dot rows (fun r => r.x.getD 0 0) (fun r => r.x.getD 1 0) with hb
    set e := dot rows (fun r => r.x.getD 1 0) (fun r => r.x.getD 1 0) with he
    set u := dot rows (fun r => r.y) (fun r => r.x.getD 0 0) with hu
    set w := dot rows (fun r => r.y) (fun r => r.x.getD 1 0) with hw
    intro c'
    apply wss_normal (fun r hr => (hrows r hr).2)
    have hsum : ∀ (c : Nat → K) (i : Nat) (l : List (SvdFit.Row K)), (l.map fun r => r.w * (r.y - ∑ k ∈ Finset.range 2, c k * r.x.getD k 0) * r.x.getD i 0).sum =
        dot l (fun r => r.y) (fun r => r.x.getD i 0) - c 0 * dot l (fun r => r.x.getD 0 0) (fun r => r.x.getD i 0) - c 1 * dot l (fun r => r.x.getD 1 0) (fun r => r.x.getD i 0) := by
      intro c i l
      unfold dot
      induction l with
      | nil => simp
      | cons r l ih =>
        rw [List.map_cons, List.sum_cons, ih]
        simp only [List.map_cons, List.sum_cons, Finset.sum_range_succ, Finset.sum_range_zero]
        ring
    have hcomm : dot rows (fun r => r.x.getD 1 0) (fun r => r.x.getD 0 0) = b := by
      rw [hb]; unfold dot; congr 1
      exact List.map_congr_left (fun r _ => by ring)
    intro i hi
    rw [hsum]
    have h2 : i = 0 ∨ i = 1 := by omega
    rcases h2 with rfl | rfl
    · rw [hcomm, ← ha, ← hu]
      simp only [if_true, one_ne_zero, if_false]
      rw [sub_sub, sub_eq_zero, div_mul_eq_mul_div, div_mul_eq_mul_div, ← add_div, eq_div_iff hdet]
      ring
    · rw [← hb, ← he, ← hw]
      simp only [if_true, one_ne_zero, if_false]
      rw [sub_sub, sub_eq_zero, div_mul_eq_mul_div, div_mul_eq_mul_div, ← add_div, eq_div_iff hdet]
      ring
  · rw [if_neg hc] at h; cases h

/-! ## Examples -/

/-- Extinction curves for the examples: dust index `k` divides the flux by `1 + k` below wavelength 3, no IGM. -/
def exCurves : Tpl.Curves ℚ := ⟨fun k w => .ok (if w < 3 then 1 / (1 + (k : ℚ)) else 1), fun _ => some 0, fun _ _ _ => .ok 1, 1215⟩

/-- A spectrum that is the sum of twice the first template and three times the second one, without dust. -/
def exEnv (ebmv : List Int) : Env ℚ :=
  { sq := id, solve := exSolve, reb := exReb, tiny := 1 / 1000, big := 1000000, c := exCurves, ebmvValue := fun k => (k : ℚ) / 10, ebmvIndex := fun _ => .ok 0,
    hasDust := true, hasIgm := true, axis := [1, 2, 3, 4], flux := [5, 8, 7, 10], err := [1, 1, 1, 1], tpls := [([1, 2, 3, 4], [1, 1, 2, 2]), ([1, 2, 3, 4], [1, 2, 1, 2])],
    igm := false, dust := true, meiksin := [-1], ebmv := ebmv }

theorem exEnv_ok (ebmv : List Int) : (exEnv ebmv).Ok where
  wls := exSolve_wls
  tiny := by norm_num [exEnv]
  axis := by simp only [exEnv]; decide +kernel
  flux := rfl
  err := rfl
  igmMax := by norm_num [exEnv, exCurves]
  reb := by
    intro t i l f m h
    simp only [exEnv, exReb, Res.ok.injEq, Prod.mk.injEq] at h
    rw [← h.1, List.length_map]

/-- A readable part of a result: chi2, E(B-V) and amplitudes. -/
def view (r : Res (Option ℚ × Result ℚ)) : Option (Option (ℚ × ℚ) × Option (List ℚ)) :=
  match r with
  | .ok p => some (p.2.best.map (fun q => (q.chi2, q.ebmv)), p.2.last.map (·.amps))
  | _ => none

-- One configuration: the fit returns, with a null chi2 and the amplitudes 2 and 3.
example : view (basicFit (exEnv [0]) ⟨1, 4⟩ (1 / 2) [1, 1, 1, 1] 0) = some (some (0, 0), some [2, 3]) := by decide +kernel

/-- **C135 counterexample** With two dust values the fit reports the first one, with a null chi2, but the reported amplitudes are the ones of the second one: with the
reported dust they do not give the reported chi2. -/
theorem C135_amplitudes_counterexample :
    ∃ ov r q l, basicFit (exEnv [0, 1]) ⟨1, 4⟩ (1 / 2) [1, 1, 1, 1] 0 = .ok (ov, r) ∧ r.best = some q ∧ q.chi2 = 0 ∧ q.ebmv = (exEnv [0, 1]).ebmvValue 0 ∧ r.last = some l ∧
      0 < ((exEnv [0, 1]).prob 0 [[1, 1, 2, 2], [1, 2, 1, 2]] (0, 3)).chi2 (dustFun ((exEnv [0, 1]).op 0) 0) (igmFun ((exEnv [0, 1]).op 0) (-1)) (fun c => l.amps.getD c 0) := by
  have e : (match basicFit (exEnv [0, 1]) ⟨1, 4⟩ (1 / 2) [1, 1, 1, 1] 0 with
    | .ok p => (match p.2.best, p.2.last with
      | some q, some l => decide (q.chi2 = 0) && decide (q.ebmv = (exEnv [0, 1]).ebmvValue 0) &&
        decide (0 < ((exEnv [0, 1]).prob 0 [[1, 1, 2, 2], [1, 2, 1, 2]] (0, 3)).chi2 (dustFun ((exEnv [0, 1]).op 0) 0) (igmFun ((exEnv [0, 1]).op 0) (-1)) (fun c => l.amps.getD c 0))
      | _, _ => false)
    | _ => false) = true := by decide +kernel
  revert e
  cases basicFit (exEnv [0, 1]) ⟨1, 4⟩ (1 / 2) [1, 1, 1, 1] 0 with
  | ub => intro e; cases e
  | throw _ => intro e; cases e
  | ok p =>
    obtain ⟨ov, ⟨best, last, tbl⟩⟩ := p
    intro e
    cases best with
    | none => cases e
    | some q =>
      cases last with
      | none => cases e
      | some l =>
        simp only [Bool.and_eq_true, decide_eq_true_eq] at e
        exact ⟨ov, _, q, l, rfl, rfl, e.1.1, e.1.2, rfl, e.2⟩

/-! ## C137: one template -/

theorem mapSlots_length {β : Type} {f : Slot K → Res (β × Slot K)} : ∀ {ss : List (Slot K)} {r : List β × List (Slot K)}, mapSlots f ss = .ok r → r.2.length = ss.length := by
  intro ss
  induction ss with
  | nil => intro r h; cases h; rfl
  | cons s ss ih =>
    intro r h
    unfold mapSlots at h
    obtain ⟨r1, h1, h⟩ := Res.bind_eq_ok.1 h
    obtain ⟨rs, h2, h⟩ := Res.bind_eq_ok.1 h
    cases h
    simp [ih h2]

theorem dustStep_two {sq : K → K} {solve : Solver K} {norm : K} {a : Nat} {data : List (K × K)} {op : Opt K} {A : Bool} {kM : Nat} {mi : Int} {kE : Nat}
    {st st' : List (Slot K) × Result K} (h : dustStep sq solve norm a data op A kM mi kE st = .ok st') : 2 ≤ st.1.length := by
  unfold dustStep at h
  obtain ⟨k, -, h⟩ := Res.bind_eq_ok.1 h
  obtain ⟨slots, h1, h⟩ := Res.bind_eq_ok.1 h
  obtain ⟨eqs, -, h⟩ := Res.bind_eq_ok.1 h
  obtain ⟨f, -, h⟩ := Res.bind_eq_ok.1 h
  have hl : slots.length = st.1.length := by
    unfold dustAll at h1
    split at h1
    · obtain ⟨r, r1, r2⟩ := Res.bind_eq_ok.1 h1
      cases r2
      exact mapSlots_length r1
    · cases h1; rfl
  by_contra hc
  rw [if_pos (by omega)] at h
  cases h

/-- **C137** The fit with one template never returns, at any redshift and with any solver, spectrum and options. -/
theorem C137_one_template {v : Env K} {lr : Range K} {thr : K} {mask : List Nat} {z : K} (h1 : v.tpls.length = 1) (p : Option K × Result K) :
    basicFit v lr thr mask z ≠ .ok p := by
  intro h
  unfold basicFit at h
  split at h
  · cases h
  obtain ⟨rb, h2, h⟩ := Res.bind_eq_ok.1 h
  split at h
  · cases h
  obtain ⟨ij, -, h⟩ := Res.bind_eq_ok.1 h
  obtain ⟨r, h3, h⟩ := Res.bind_eq_ok.1 h
  have hlen : rb.fluxes.length = 1 := by
    have := (C133_range h2).2.1
    rw [← h1]
    exact this.length_eq.symm
  unfold fitSlots at h3
  obtain ⟨ss, h4, h3⟩ := Res.bind_eq_ok.1 h3
  obtain ⟨u, -, h3⟩ := Res.bind_eq_ok.1 h3
  by_cases hE : v.ebmv = []
  · rw [if_pos hE] at h3; cases h3
  rw [if_neg hE] at h3
  obtain ⟨norm, -, h3⟩ := Res.bind_eq_ok.1 h3
  obtain ⟨data, -, h3⟩ := Res.bind_eq_ok.1 h3
  obtain ⟨r', h6, h7⟩ := Res.bind_eq_ok.1 h3
  have hss : ss.length = 1 := by
    unfold initAll at h4
    have e0 : (v.slots z mask ij rb.fluxes).length = 1 := by simp [Env.slots, hlen]
    split at h4
    · obtain ⟨r, r1, r2⟩ := Res.bind_eq_ok.1 h4
      cases r2
      rw [mapSlots_length r1, e0]
    · cases h4; exact e0
  cases hm : v.meiksin.length with
  | zero =>
    rw [hm] at h6
    simp only [igmLoop, Res.ok.injEq] at h6
    rw [← h6] at h7
    cases h7
  | succ n =>
    rw [hm] at h6
    unfold igmLoop at h6
    rw [if_neg (by simp)] at h6
    obtain ⟨mi, -, h6⟩ := Res.bind_eq_ok.1 h6
    obtain ⟨s, hs, h6⟩ := Res.bind_eq_ok.1 h6
    obtain ⟨st', hf, -⟩ := Res.bind_eq_ok.1 h6
    have hs1 : s.2.length = 1 := by
      unfold igmAll at hs
      split at hs
      · split at hs
        · cases hs; exact hss
        · obtain ⟨r, r1, r2⟩ := Res.bind_eq_ok.1 hs
          cases r2
          rw [mapSlots_length r1]; exact hss
      · cases hs; exact hss
    have hb : (v.op z).ebmv.length = v.ebmv.length - 1 + 1 := by
      have := List.length_pos_iff.2 hE
      show v.ebmv.length = _
      omega
    rw [hb] at hf
    unfold Res.foldN at hf
    obtain ⟨s1, hd, -⟩ := Res.bind_eq_ok.1 hf
    have := dustStep_two hd
    simp only at this
    omega

/-- A solver for one coefficient, for the next example. -/
def exSolve1 : Solver ℚ := fun _ _ => .ok ⟨fun _ => 1, fun _ _ => 1, 0⟩

-- With one template and one configuration, the solver succeeds and the fit throws.
example : (match basicFit { exEnv [0] with tpls := [([1, 2, 3, 4], [1, 1, 2, 2])], solve := exSolve1 } ⟨1, 4⟩ (1 / 2) [1, 1, 1, 1] 0 with
  | .throw e => decide (e = .EXTERNAL_LIB_ERROR) | _ => false) = true := by decide +kernel

end TplComb
end Amazed
