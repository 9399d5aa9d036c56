import Verif.Props.SvdFitLS
import Mathlib.Algebra.Field.Rat
import Mathlib.Tactic.Ring
import Mathlib.Tactic.Linarith
import Mathlib.Tactic.FieldSimp

set_option linter.unusedVariables false
set_option linter.unusedSectionVars false

/-! # The hypotheses of C77 can be met; what the joint fit does not minimise -/

namespace Amazed
namespace SvdFit

variable {K G : Type} [Field K] [LinearOrder K] [IsStrictOrderedRing K] [LinearOrder G]

/-! ## Linear least squares problems have solutions -/

/-- Weighted scalar product of two vectors. -/
def ip {n : Nat} (w f g : Fin n → K) : K := ∑ i, w i * f i * g i

theorem ip_sub_left {n : Nat} (w f g h : Fin n → K) : ip w (fun i => f i - g i) h = ip w f h - ip w g h := by
  unfold ip; rw [← Finset.sum_sub_distrib]; exact Finset.sum_congr rfl fun i _ => by ring

theorem ip_smul_left {n : Nat} (w f h : Fin n → K) (t : K) : ip w (fun i => t * f i) h = t * ip w f h := by
  unfold ip; rw [Finset.mul_sum]; exact Finset.sum_congr rfl fun i _ => by ring

theorem ip_comm {n : Nat} (w f g : Fin n → K) : ip w f g = ip w g f := by
  unfold ip; exact Finset.sum_congr rfl fun i _ => by ring

theorem ip_sum_right {n : Nat} (w f : Fin n → K) (N : Nat) (X : Nat → Fin n → K) (c : Nat → K) :
    ip w f (fun i => ∑ j ∈ Finset.range N, c j * X j i) = ∑ j ∈ Finset.range N, c j * ip w f (X j) := by
  unfold ip
  simp_rw [Finset.mul_sum]
  rw [Finset.sum_comm]
  exact Finset.sum_congr rfl fun j _ => Finset.sum_congr rfl fun i _ => by ring

theorem ip_self_zero {n : Nat} (w f : Fin n → K) (hw : ∀ i, 0 < w i) (h : ip w f f = 0) (i : Fin n) : f i = 0 := by
  unfold ip at h
  have hn : ∀ j ∈ Finset.univ, 0 ≤ w j * f j * f j := fun j _ => by
    rw [mul_assoc]; exact mul_nonneg (hw j).le (mul_self_nonneg _)
  have := (Finset.sum_eq_zero_iff_of_nonneg hn).1 h i (Finset.mem_univ i)
  rw [mul_assoc] at this
  rcases mul_eq_zero.1 this with h1 | h1
  · exact absurd h1 (hw i).ne'
  · exact mul_self_eq_zero.1 h1

/-- The residual of some combination of the columns is orthogonal to all of them. -/
theorem normal_eq {n : Nat} (w : Fin n → K) (hw : ∀ i, 0 < w i) (X : Nat → Fin n → K) : ∀ (N : Nat) (y : Fin n → K),
    ∃ c : Nat → K, ∀ k, k < N → ip w (fun i => y i - ∑ j ∈ Finset.range N, c j * X j i) (X k) = 0 := by
  intro N
  induction N with
  | zero => intro y; exact ⟨fun _ => 0, fun k hk => absurd hk (by omega)⟩
  | succ N ih =>
    intro y
    obtain ⟨d, hd⟩ := ih (X N)
    obtain ⟨c, hc⟩ := ih y
    obtain ⟨r, hr⟩ : ∃ r : Fin n → K, r = fun i => X N i - ∑ j ∈ Finset.range N, d j * X j i := ⟨_, rfl⟩
    obtain ⟨s, hs⟩ : ∃ s : Fin n → K, s = fun i => y i - ∑ j ∈ Finset.range N, c j * X j i := ⟨_, rfl⟩
    rw [← hr] at hd
    rw [← hs] at hc
    have hX : ∀ g : Fin n → K, (∀ k, k < N → ip w g (X k) = 0) → ip w g (X N) = ip w g r := by
      intro g hg
      have : ip w g r = ip w g (X N) - ip w g (fun i => ∑ j ∈ Finset.range N, d j * X j i) := by
        rw [hr, ip_comm, ip_sub_left, ip_comm w (X N), ip_comm w _ g]
      rw [this, ip_sum_right, Finset.sum_eq_zero, sub_zero]
      intro j hj
      rw [hg j (Finset.mem_range.1 hj), mul_zero]
    obtain ⟨t, ht⟩ : ∃ t : K, ip w s r = t * ip w r r := by
      by_cases h0 : ip w r r = 0
      · refine ⟨0, ?_⟩
        rw [zero_mul]
        unfold ip
        exact Finset.sum_eq_zero fun i _ => by rw [ip_self_zero w r hw h0 i, mul_zero]
      · exact ⟨ip w s r / ip w r r, by field_simp⟩
    refine ⟨fun j => if j = N then t else c j - t * d j, fun k hk => ?_⟩
    have hres : (fun i => y i - ∑ j ∈ Finset.range (N + 1), (if j = N then t else c j - t * d j) * X j i) = fun i => s i - t * r i := by
      funext i
      rw [Finset.sum_range_succ, if_pos rfl, hs, hr]
      have : ∑ j ∈ Finset.range N, (if j = N then t else c j - t * d j) * X j i =
          ∑ j ∈ Finset.range N, c j * X j i - t * ∑ j ∈ Finset.range N, d j * X j i := by
        rw [Finset.mul_sum, ← Finset.sum_sub_distrib]
        refine Finset.sum_congr rfl fun j hj => ?_
        rw [if_neg (by have := Finset.mem_range.1 hj; omega)]
        ring
      rw [this]
      ring
    rw [hres]
    have hlow : ∀ k, k < N → ip w (fun i => s i - t * r i) (X k) = 0 := by
      intro k hk
      rw [ip_sub_left, ip_smul_left, hc k hk, hd k hk]
      ring
    by_cases hkN : k = N
    · subst hkN
      rw [hX _ hlow, ip_sub_left, ip_smul_left, ht]
      ring
    · exact hlow k (by omega)

/-- A combination satisfying the normal equations minimises the weighted sum of squares. -/
theorem normal_min {n : Nat} (w : Fin n → K) (hw : ∀ i, 0 < w i) (X : Nat → Fin n → K) (N : Nat) (y : Fin n → K) (c : Nat → K)
    (hc : ∀ k, k < N → ip w (fun i => y i - ∑ j ∈ Finset.range N, c j * X j i) (X k) = 0) (c' : Nat → K) :
    ∑ i, w i * (y i - ∑ j ∈ Finset.range N, c j * X j i) ^ 2 ≤ ∑ i, w i * (y i - ∑ j ∈ Finset.range N, c' j * X j i) ^ 2 := by
  have hcross := ip_sum_right w (fun i => y i - ∑ j ∈ Finset.range N, c j * X j i) N X (fun j => c j - c' j)
  rw [Finset.sum_eq_zero (s := Finset.range N) (fun j hj => by rw [hc j (Finset.mem_range.1 hj), mul_zero])] at hcross
  have hdiff : ∀ i, y i - ∑ j ∈ Finset.range N, c' j * X j i =
      (y i - ∑ j ∈ Finset.range N, c j * X j i) + ∑ j ∈ Finset.range N, (c j - c' j) * X j i := by
    intro i
    have : ∑ j ∈ Finset.range N, (c j - c' j) * X j i = ∑ j ∈ Finset.range N, c j * X j i - ∑ j ∈ Finset.range N, c' j * X j i := by
      rw [← Finset.sum_sub_distrib]; exact Finset.sum_congr rfl fun j _ => by ring
    rw [this]; ring
  have hexp : ∑ i, w i * (y i - ∑ j ∈ Finset.range N, c' j * X j i) ^ 2 =
      ∑ i, w i * (y i - ∑ j ∈ Finset.range N, c j * X j i) ^ 2 +
      2 * ip w (fun i => y i - ∑ j ∈ Finset.range N, c j * X j i) (fun i => ∑ j ∈ Finset.range N, (c j - c' j) * X j i) +
      ∑ i, w i * (∑ j ∈ Finset.range N, (c j - c' j) * X j i) ^ 2 := by
    unfold ip
    rw [Finset.mul_sum, ← Finset.sum_add_distrib, ← Finset.sum_add_distrib]
    refine Finset.sum_congr rfl fun i _ => ?_
    rw [hdiff i]
    ring
  rw [hexp, hcross, mul_zero, add_zero]
  exact le_add_of_nonneg_right (Finset.sum_nonneg fun i _ => mul_nonneg (hw i).le (sq_nonneg _))

theorem dot_max (x : List K) (c : Nat → K) (N : Nat) (h : x.length ≤ N) : dot x c = ∑ j ∈ Finset.range N, c j * x.getD j 0 := by
  unfold dot
  obtain ⟨m, rfl⟩ := Nat.exists_eq_add_of_le h
  rw [Finset.sum_range_add, Finset.sum_eq_zero (s := Finset.range m), add_zero]
  · exact Finset.sum_congr rfl fun k _ => mul_comm _ _
  · intro k _
    rw [List.getD_eq_getElem?_getD, List.getElem?_eq_none (by omega)]
    simp

/-- There is a solver of linear least squares problems. -/
theorem exact_exists : ∃ solve : Solver K, Exact solve := by
  have key : ∀ rows : List (Row K), ∃ c : Nat → K, (∀ r ∈ rows, 0 < r.w) → ∀ c', wss rows c ≤ wss rows c' := by
    intro rows
    by_cases hw : ∀ r ∈ rows, 0 < r.w
    swap
    · exact ⟨fun _ => 0, fun h => absurd h hw⟩
    obtain ⟨N, hN⟩ : ∃ N, ∀ r ∈ rows, r.x.length ≤ N := by
      clear hw
      induction rows with
      | nil => exact ⟨0, by simp⟩
      | cons r l ih =>
        obtain ⟨N, h⟩ := ih
        refine ⟨max N r.x.length, fun q hq => ?_⟩
        rcases List.mem_cons.1 hq with rfl | hq
        · omega
        · have := h q hq; omega
    have hwi : ∀ i : Fin rows.length, 0 < rows[i].w := fun i => hw _ (List.getElem_mem _)
    obtain ⟨c, hc⟩ := normal_eq (fun i : Fin rows.length => rows[i].w) hwi (fun j i => rows[i].x.getD j 0) N (fun i => rows[i].y)
    refine ⟨c, fun _ c' => ?_⟩
    have hws : ∀ c : Nat → K, wss rows c = ∑ i : Fin rows.length, rows[i].w * (rows[i].y - ∑ j ∈ Finset.range N, c j * rows[i].x.getD j 0) ^ 2 := by
      intro c
      unfold wss
      rw [← Fin.sum_univ_fun_getElem]
      exact Finset.sum_congr rfl fun i _ => by rw [dot_max _ _ N (hN _ (List.getElem_mem _))]; rfl
    rw [hws, hws]
    exact normal_min _ hwi _ N _ c hc c'
  choose f hf using key
  exact ⟨fun rows => (f rows, fun _ => 0), fun rows hw c => hf rows hw c⟩

/-! ## A concrete case -/

/-- An element with one visible line of given support. -/
def exElt (a b : ℤ) : EltList.E ℚ Nat := ⟨⟨1, fun _ => ⟨a, b, false⟩, ⟨fun _ => a, fun _ => b, fun _ _ => true⟩⟩, .emission, 1,
  fun _ => 0, fun _ => 0, fun _ => 1, [(.emission, 1)]⟩

/-- Its parameters. -/
def exPar : Amp.Elt ℚ := ⟨[⟨"a", .strong⟩], .emission, true, [1], [none], [none], 1, false, [false], false, [false]⟩

/-- Two elements on five samples; the profile of the first is 1 on samples 0 to 2, that of the second is 2 on samples 2 and 3. -/
def exEnv : Env ℚ Nat := ⟨[exElt 0 2, exElt 2 3], fun i _ x => if i = 0 then (if x ≤ 2 then 1 else 0) else (if x = 2 ∨ x = 3 then 2 else 0),
  [0, 1, 2, 3, 4], [0, 0, 0, 0, 0], [5, 5, 11, 6, 7], [1, 1, 2, 2, 1], false, 1, id, fun _ => []⟩

/-- The hypotheses of C77 hold for it, with an exact solver. -/
example : EnvOk exEnv [exPar, exPar] [0, 1] ∧ EltList.supportIndexes exEnv.es [0, 1] = .ok [0, 1, 2, 3] ∧
    [0, 1].length + (if exEnv.offsets then 3 else 0) ≤ [0, 1, 2, 3].length ∧ ∃ solve : Solver ℚ, Exact solve := by
  refine ⟨⟨rfl, rfl, rfl, by decide +kernel, ?_, rfl, ?_, ?_, ?_, by decide +kernel, by decide, by decide⟩, by decide +kernel, by decide, exact_exists⟩
  · intro e he p hp
    simp only [exEnv, List.mem_cons, List.not_mem_nil, or_false] at he
    rcases he with rfl | rfl <;> (obtain ⟨k, _, _, h1, h2⟩ := hp; simp only [exElt] at h1 h2; exact ⟨by omega, by simp [exEnv]; omega⟩)
  · intro pe hpe
    simp only [List.mem_cons, List.not_mem_nil, or_false, or_self] at hpe
    subst hpe
    exact ⟨rfl, rfl, rfl, rfl, rfl⟩
  · intro pe hpe x hx
    simp only [List.mem_cons, List.not_mem_nil, or_false, or_self] at hpe
    subst hpe
    simp only [exPar, List.mem_cons, List.not_mem_nil, or_false] at hx
    subst hx
    norm_num
  · intro i e pe h1 h2
    match i with
    | 0 => simp only [exEnv, List.getElem?_cons_zero, Option.some.injEq] at h1 h2; subst h1; subst h2; rfl
    | 1 => simp only [exEnv, List.getElem?_cons_succ, List.getElem?_cons_zero, Option.some.injEq] at h1 h2; subst h1; subst h2; rfl
    | n + 2 => simp at h2

/-- The solution of the normal equations of two columns. -/
def solve2 : Solver ℚ := fun rows =>
  let s := fun (f : Row ℚ → ℚ) => (rows.map fun r => r.w * f r).sum
  let c := fun (r : Row ℚ) (k : Nat) => r.x.getD k 0
  let a := s fun r => c r 0 * c r 0
  let b := s fun r => c r 0 * c r 1
  let d := s fun r => c r 1 * c r 1
  let u := s fun r => c r 0 * r.y
  let v := s fun r => c r 1 * r.y
  let det := a * d - b * b
  (fun k => if k = 0 then (u * d - v * b) / det else if k = 1 then (v * a - u * b) / det else 0, fun _ => 1)

/-- Amplitudes 5 and 3 fit the flux of the covered samples exactly. -/
example : (linSolvePositive exEnv solve2 [0, 1] [exPar, exPar]).bind (fun st => .ok (st.map (·.fa))) = .ok [[some 5], [some 3]] := by
  decide +kernel

/-- The amplitude of an element found negative is set to 0 and the other is fitted alone. -/
example : (linSolvePositive { exEnv with flux := [5, 5, 1, -4, 7], obs := fun i => [⟨
      [0, 1, 2, 3, 4], [0, 0, 0, 0, 0], [5, 5, 1, -4, 7], [1, 1, 2, 2, 1], (exElt 0 2).sup, fun _ x => if x ≤ 2 then 1 else 0⟩] } solve2 [0, 1] [exPar, exPar]).bind
      (fun st => .ok (st.map (·.fa))) = .ok [[some (41 / 9)], [some 0]] := by
  decide +kernel

/-- Two elements of one sample each; the profile of the first also covers the sample of the second. -/
def exOver : Env ℚ Nat := ⟨[exElt 0 0, exElt 1 1], fun i _ x => if i = 0 then 1 else if x = 1 then 1 else 0,
  [0, 1], [0, 0], [1, 1], [1, 1], false, 1, id, fun _ => []⟩

/-- The flux model of the elements of an environment, added element by element to a null flux. -/
def fluxModel (env : Env ℚ Nat) (st : List (Amp.Elt ℚ)) : Res (List ℚ) :=
  Res.foldN (fun i flux => Res.at_ env.es i >>= fun e => Res.at_ st i >>= fun pe =>
    EltSup.addToModel e.sup pe.isEmission (fun k => ⟨(pe.fa[k]?).getD none, env.prof i k⟩) none env.axis env.cont flux) 0 env.es.length
    (List.replicate env.axis.length 0)

/-- Chi-square of a flux with respect to the spectrum of an environment. -/
def fluxChi2 (env : Env ℚ Nat) (m : List ℚ) : ℚ :=
  ((List.range env.axis.length).map fun p => ((env.flux.getD p 0 - m.getD p 0) / env.err.getD p 0) ^ 2).sum

/-- The flux model truncates each line to its support, the linear system does not: the joint fit of these two elements sets
the amplitudes 1 and 0, whose flux model has chi-square 1, when the amplitudes 1 and 1 give chi-square 0. -/
theorem C77_truncation_counterexample :
    ((linSolve exOver solve2 [0, 1] [] [exPar, exPar]).bind fun o => .ok (o.amps, jointChi2 exOver [exPar, exPar] [0, 1] [0, 1] (fun k => o.amps.getD k 0) (0, 0, 0))) =
      .ok ([1, 0], 0) ∧
    ((linSolve exOver solve2 [0, 1] [] [exPar, exPar]).bind fun o => (fluxModel exOver o.st).bind fun m => .ok (fluxChi2 exOver m)) = .ok 1 ∧
    ((setAmp 0 (some 1) none [exPar, exPar]).bind fun st => (setAmp 1 (some 1) none st).bind fun st =>
      (fluxModel exOver st).bind fun m => .ok (fluxChi2 exOver m)) = .ok 0 := by
  decide +kernel

end SvdFit
end Amazed
