import Verif.Props.DirIntMain

set_option linter.unusedVariables false
set_option linter.unusedSectionVars false

/-! # Flux of lines by direct integration over several spectra (C160) -/

namespace Amazed
namespace DirInt
open EltSup EltList SpcModel

variable {K : Type} [Field K] [LinearOrder K] [IsStrictOrderedRing K] {G : Type} [LinearOrder G]

/-- The result of one spectrum. -/
def one (undef : G) (nsig : K) (eIdx subIdx : List Nat) (sub : Bool) (o : Spc K G) : Res (K × K) :=
  fluxDI undef nsig o.es o.geom o.lr o.err eIdx subIdx sub o.st

theorem sums_go (undef : G) (nsig : K) (eIdx subIdx : List Nat) (sub : Bool) (f : Spc K G → K × K) : ∀ (spcs : List (Spc K G)) (q : K × K),
    (∀ o ∈ spcs, one undef nsig eIdx subIdx sub o = .ok (f o)) →
    foldL (fun (o : Spc K G) q => fluxDI undef nsig o.es o.geom o.lr o.err eIdx subIdx sub o.st >>= fun r => .ok (q.1 + r.1, q.2 + r.2)) spcs q =
      .ok (q.1 + (spcs.map fun o => (f o).1).sum, q.2 + (spcs.map fun o => (f o).2).sum) := by
  intro spcs
  induction spcs with
  | nil => intro q _; simp [foldL]
  | cons o l ih =>
    intro q h
    have ho := h o (by simp)
    unfold one at ho
    unfold foldL
    rw [ho, Res.bind_ok, Res.bind_ok, ih _ fun o ho => h o (by simp [ho])]
    simp only [List.map_cons, List.sum_cons]
    rw [add_assoc, add_assoc]

/-- **C160** When the integration succeeds on each spectrum, the flux is the sum of the fluxes of the spectra and the SNR its absolute value divided by the square root
of the sum of the squared errors; both are NaN when that sum is not positive. The reported uncertainty is that square root, except that it is NaN for a null flux. -/
theorem C160_sum (sq : K → K) (hsq : ∀ x, 0 < x → 0 < sq x) (undef : G) (nsig : K) (eIdx subIdx : List Nat) (sub : Bool) (spcs : List (Spc K G)) (f : Spc K G → K × K)
    (h : ∀ o ∈ spcs, fluxDI undef nsig o.es o.geom o.lr o.err eIdx subIdx sub o.st = .ok (f o)) :
    ∃ r, fluxAll sq undef nsig eIdx subIdx sub spcs = .ok r ∧
      (0 < (spcs.map fun o => (f o).2).sum →
        r = some ((spcs.map fun o => (f o).1).sum, |(spcs.map fun o => (f o).1).sum| / sq (spcs.map fun o => (f o).2).sum) ∧
        ((spcs.map fun o => (f o).1).sum ≠ 0 → uncertainty r = some (sq (spcs.map fun o => (f o).2).sum)) ∧
        ((spcs.map fun o => (f o).1).sum = 0 → uncertainty r = none)) ∧
      ((spcs.map fun o => (f o).2).sum ≤ 0 → r = none ∧ uncertainty r = none) := by
  have hs := sums_go undef nsig eIdx subIdx sub f spcs (0, 0) h
  simp only [zero_add] at hs
  unfold fluxAll sums
  rw [hs, Res.bind_ok]
  simp only
  by_cases hc : (spcs.map fun o => (f o).2).sum ≤ 0
  · rw [if_pos hc]
    exact ⟨none, rfl, fun h => absurd hc (not_le.2 h), fun _ => ⟨rfl, rfl⟩⟩
  · rw [if_neg hc]
    refine ⟨_, rfl, fun hp => ⟨rfl, ?_, ?_⟩, fun h => absurd h hc⟩
    · intro hf
      unfold uncertainty
      simp only [Option.bind_some]
      rw [if_neg hf]
      have h1 : |(spcs.map fun o => (f o).1).sum| ≠ 0 := abs_ne_zero.2 hf
      have h2 := (hsq _ hp).ne'
      congr 1
      field_simp
    · intro hf
      unfold uncertainty
      simp only [Option.bind_some]
      rw [if_pos hf]

/-- **C160, negative part** A line whose position is refused by the LSF of one of the spectra makes the whole integration fail, whatever the other spectra: the spectra where
the line is out of range are not skipped. -/
theorem C160_outside_counterexample (sq : K → K) (undef : G) (nsig : K) (i k : Nat) (sub : Bool) (spcs rest : List (Spc K G)) (o : Spc K G) (e : Err)
    (h : ∀ o ∈ spcs, ∃ r, fluxDI undef nsig o.es o.geom o.lr o.err [i] [k] sub o.st = .ok r) (ho : o.geom i k = .throw e) :
    fluxAll sq undef nsig [i] [k] sub (spcs ++ o :: rest) = .throw e := by
  have h1 : fluxDI undef nsig o.es o.geom o.lr o.err [i] [k] sub o.st = .throw e := by
    unfold fluxDI underLines windows
    simp [Res.tab, ho, Res.at_, Res.bind_ok, Res.bind_throw]
  have h2 : ∀ (l : List (Spc K G)) (q : K × K), (∀ o ∈ l, ∃ r, fluxDI undef nsig o.es o.geom o.lr o.err [i] [k] sub o.st = .ok r) →
      foldL (fun (o : Spc K G) q => fluxDI undef nsig o.es o.geom o.lr o.err [i] [k] sub o.st >>= fun r => .ok (q.1 + r.1, q.2 + r.2)) (l ++ o :: rest) q = .throw e := by
    intro l
    induction l with
    | nil =>
      intro q _
      rw [List.nil_append]
      unfold foldL
      rw [h1, Res.bind_throw, Res.bind_throw]
    | cons a l ih =>
      intro q hq
      obtain ⟨r, hr⟩ := hq a (by simp)
      rw [List.cons_append]
      unfold foldL
      rw [hr, Res.bind_ok, Res.bind_ok]
      exact ih _ fun o ho => hq o (by simp [ho])
  unfold fluxAll sums
  rw [h2 spcs _ h, Res.bind_throw]

theorem trapezErr_nonneg (xs es : List K) (b e : Nat) : 0 ≤ Flux.trapezErr xs es b e := by
  unfold Flux.trapezErr
  apply List.sum_nonneg
  intro x hx
  obtain ⟨k, _, rfl⟩ := List.mem_map.1 hx
  positivity

theorem trapezErr_pos (xs es : List K) (hs : SAxis.Increasing xs) (he : es.length = xs.length) (hpos : ∀ x ∈ es, 0 < x) (b e : Nat) (hbe : b < e) (hel : e < xs.length) :
    0 < Flux.trapezErr xs es b e := by
  unfold Flux.trapezErr
  obtain ⟨n, rfl⟩ : ∃ n, e = b + (n + 1) := ⟨e - b - 1, by omega⟩
  rw [show b + (n + 1) - b = n + 1 by omega, List.range_succ, List.map_append, List.sum_append]
  have h1 : 0 ≤ ((List.range n).map fun k => ((xs.getD (b + k + 1) 0 - xs.getD (b + k) 0) / 2) ^ 2 * (es.getD (b + k + 1) 0 ^ 2 + es.getD (b + k) 0 ^ 2)).sum := by
    apply List.sum_nonneg
    intro x hx
    obtain ⟨k, _, rfl⟩ := List.mem_map.1 hx
    positivity
  have h2 : xs.getD (b + n) 0 < xs.getD (b + n + 1) 0 := by
    rw [List.getD_eq_getElem _ _ (by omega), List.getD_eq_getElem _ _ (by omega)]
    exact axis_lt hs (by omega) (by omega) (by omega)
  have h3 : 0 < es.getD (b + n) 0 := by
    rw [List.getD_eq_getElem _ _ (by omega)]; exact hpos _ (List.getElem_mem _)
  simp only [List.map_cons, List.map_nil, List.sum_cons, List.sum_nil, add_zero]
  have h4 : 0 < (xs.getD (b + n + 1) 0 - xs.getD (b + n) 0) / 2 := by linarith
  positivity

/-- **C160, one spectrum** The integrated error is null exactly when no window holds two consecutive samples (positive errors): the flux and its SNR are then NaN. -/
theorem C160_nan (xs es : List K) (hs : SAxis.Increasing xs) (he : es.length = xs.length) (hpos : ∀ x ∈ es, 0 < x) (ranges : List (Nat × Nat))
    (hr : ∀ r ∈ ranges, r.1 ≤ r.2 ∧ r.2 < xs.length) :
    (ranges.map fun r => Flux.trapezErr xs es r.1 r.2).sum ≤ 0 ↔ ∀ r ∈ ranges, r.1 = r.2 := by
  induction ranges with
  | nil => simp
  | cons r l ih =>
    have ih' := ih fun r h => hr r (by simp [h])
    have hrr := hr r (by simp)
    have hn : 0 ≤ (l.map fun r => Flux.trapezErr xs es r.1 r.2).sum := by
      apply List.sum_nonneg
      intro x hx
      obtain ⟨q, _, rfl⟩ := List.mem_map.1 hx
      exact trapezErr_nonneg _ _ _ _
    rw [List.map_cons, List.sum_cons]
    constructor
    · intro h
      have h1 := trapezErr_nonneg xs es r.1 r.2
      intro q hq
      rcases List.mem_cons.1 hq with rfl | hq
      · by_contra hc
        have := trapezErr_pos xs es hs he hpos q.1 q.2 (by omega) hrr.2
        linarith
      · exact ih'.1 (by linarith) q hq
    · intro h
      have h1 : Flux.trapezErr xs es r.1 r.2 = 0 := by rw [h r (by simp)]; simp [Flux.trapezErr]
      rw [h1, zero_add]
      exact ih'.2 fun q hq => h q (by simp [hq])

/-! ## A concrete case -/

/-- The two lines of `exEs`: at 2 with a width of 1/3 and at 5/2 with a width of 1/6. -/
def exGeom : Geom ℚ := fun i _ => if i = 0 then .ok (2, 1 / 3) else .ok (5 / 2, 1 / 6)

def exSpc : Spc ℚ Nat := ⟨SpcModel.exEs, exGeom, ⟨0, 6⟩, [1, 1, 1, 1, 1, 1, 1], exSt⟩

example : fluxDI 0 6 SpcModel.exEs exGeom (⟨0, 6⟩ : Range ℚ) [1, 1, 1, 1, 1, 1, 1] [0] [0] true exSt = .ok (-4, 1) := by decide +kernel
example : fluxDI 0 6 SpcModel.exEs exGeom (⟨0, 6⟩ : Range ℚ) [1, 1, 1, 1, 1, 1, 1] [0] [0] false exSt = .ok (-4, 1) := by decide +kernel
example : fluxAll id 0 6 [0] [0] true [exSpc, exSpc] = .ok (some (-8, 4)) := by decide +kernel
example : uncertainty (some ((-8 : ℚ), 4)) = some 2 := by decide +kernel
/-- Without the flag, the continuum is subtracted also outside of the supports; with it, nothing is subtracted where the elements have no support: the hypothesis that the
window is not larger than the support is needed. -/
example : fluxDI 0 12 SpcModel.exEs exGeom (⟨0, 6⟩ : Range ℚ) [1, 1, 1, 1, 1, 1, 1] [0] [0] true exSt ≠
    fluxDI 0 12 SpcModel.exEs exGeom (⟨0, 6⟩ : Range ℚ) [1, 1, 1, 1, 1, 1, 1] [0] [0] false exSt := by decide +kernel

/-- The hypotheses of `C159_flux` hold for the two lines of the example, with the flag. -/
example : SAxis.Increasing exSt.axis ∧ 2 ≤ exSt.axis.length ∧ exSt.cont.length = exSt.axis.length ∧ exSt.spc.length = exSt.axis.length ∧ Prepared exSt.axis SpcModel.exEs ∧
    (∀ q ∈ [((0 : Nat), (0 : Nat)), (1, 0)], q.1 < SpcModel.exEs.length ∧ ∃ mu sigma, exGeom q.1 q.2 = .ok (mu, sigma)) ∧
    ∀ q ∈ [((0 : Nat), (0 : Nat)), (1, 0)], LineIn 6 exSt.axis ⟨0, 6⟩ SpcModel.exEs exGeom q.1 q.2 ∧ ∀ e, SpcModel.exEs[q.1]? = some e → e.base.type ≠ .absorption := by
  have hs : SAxis.Increasing exSt.axis := by unfold SAxis.Increasing exSt exAxis; decide +kernel
  have a := exSup_ok 2 2 (by decide +kernel)
  have b := exSup_ok (5 / 2) 1 (by decide +kernel)
  refine ⟨hs, by decide, by decide, by decide, ?_, ?_, ?_⟩
  · intro e he
    simp only [SpcModel.exEs, List.mem_cons, List.not_mem_nil, or_false] at he
    rcases he with rfl | rfl
    · exact ⟨_, _, a⟩
    · exact ⟨_, _, b⟩
  · intro q hq
    simp only [List.mem_cons, List.not_mem_nil, or_false] at hq
    rcases hq with rfl | rfl
    · exact ⟨by decide, 2, 1 / 3, rfl⟩
    · exact ⟨by decide, 5 / 2, 1 / 6, rfl⟩
  · intro q hq
    simp only [List.mem_cons, List.not_mem_nil, or_false] at hq
    rcases hq with rfl | rfl
    · refine ⟨⟨exEl 2 2 10 0 1, 2, 1 / 3, 2, _, rfl, rfl, a, rfl, by norm_num, ?_⟩, ?_⟩
      · exact ⟨by decide +kernel, by decide +kernel⟩
      · intro e he; cases he; decide
    · refine ⟨⟨exEl (5 / 2) 1 20 100 2, 5 / 2, 1 / 6, 1, _, rfl, rfl, b, rfl, by norm_num, ?_⟩, ?_⟩
      · exact ⟨by decide +kernel, by decide +kernel⟩
      · intro e he; cases he; decide

end DirInt
end Amazed
