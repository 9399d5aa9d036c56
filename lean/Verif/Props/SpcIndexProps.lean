import Verif.Model.SpcIndex
import Mathlib.Algebra.Field.Rat
import Mathlib.Algebra.Order.Ring.Rat

set_option linter.unusedVariables false

/-! # Loops over the spectra (C80) -/

namespace Amazed
namespace SpcIndex

variable {σ : Type}

theorem run_visit (n : Nat) (body : Nat → σ → Res (Step σ)) (f : Nat → σ → σ) (hb : ∀ i s, i < n → body i s = .ok ⟨f i s, i, false⟩) :
    ∀ (m cur fuel : Nat) (st : σ), cur + m = n → m < fuel →
      run n body fuel cur st = some (.ok ((List.range' cur m).foldl (fun s i => f i s) st, n)) := by
  intro m
  induction m with
  | zero =>
    intro cur fuel st h hf
    obtain ⟨fuel, rfl⟩ : ∃ k, fuel = k + 1 := ⟨fuel - 1, by omega⟩
    unfold run
    rw [if_pos (by omega)]
    simp only [List.range'_zero, List.foldl_nil]
    rw [show cur = n by omega]
  | succ m ih =>
    intro cur fuel st h hf
    obtain ⟨fuel, rfl⟩ : ∃ k, fuel = k + 1 := ⟨fuel - 1, by omega⟩
    unfold run
    rw [if_neg (by omega), hb cur st (by omega)]
    simp only [Bool.false_eq_true, if_false]
    rw [ih (cur + 1) fuel _ (by omega) (by omega), List.range'_succ, List.foldl_cons]

/-- **C80** A loop over the spectra whose body does not move the shared index visits every spectrum once, in order, whatever the index was before,
and leaves the index after the last spectrum, where the current spectrum cannot be read. -/
theorem C80_visit {α : Type} (n : Nat) (body : Nat → σ → Res (Step σ)) (f : Nat → σ → σ) (hb : ∀ i s, i < n → body i s = .ok ⟨f i s, i, false⟩)
    (fuel : Nat) (hf : n < fuel) (st : σ) (v : List α) (hv : v.length = n) :
    forEach n body fuel st = some (.ok ((List.range n).foldl (fun s i => f i s) st, n)) ∧
      current n n v = .throw .INVALID_SPECTRUM_INDEX ∧ elementList n v = .throw .STD_OUT_OF_RANGE := by
  refine ⟨?_, by simp [current], by unfold elementList; rw [List.getElem?_eq_none (by omega)]⟩
  unfold forEach
  rw [run_visit n body f hb n 0 fuel st (by omega) hf, List.range_eq_range']

theorem run_break (n : Nat) (body : Nat → σ → Res (Step σ)) (f : Nat → σ → σ) (k : Nat) (hk : k < n) (hb : ∀ i s, i < k → body i s = .ok ⟨f i s, i, false⟩)
    (hs : ∀ s, body k s = .ok ⟨f k s, k, true⟩) : ∀ (m cur fuel : Nat) (st : σ), cur + m = k → m < fuel →
      run n body fuel cur st = some (.ok (f k ((List.range' cur m).foldl (fun s i => f i s) st), k)) := by
  intro m
  induction m with
  | zero =>
    intro cur fuel st h hf
    obtain ⟨fuel, rfl⟩ : ∃ k, fuel = k + 1 := ⟨fuel - 1, by omega⟩
    have hc : cur = k := by omega
    subst hc
    unfold run
    rw [if_neg (by omega), hs]
    simp
  | succ m ih =>
    intro cur fuel st h hf
    obtain ⟨fuel, rfl⟩ : ∃ k, fuel = k + 1 := ⟨fuel - 1, by omega⟩
    unfold run
    rw [if_neg (by omega), hb cur st (by omega)]
    simp only [Bool.false_eq_true, if_false]
    rw [ih (cur + 1) fuel _ (by omega) (by omega), List.range'_succ, List.foldl_cons]

/-- **C80** A loop left at spectrum `k` has visited the spectra up to `k` and leaves the shared index there. -/
theorem C80_break (n : Nat) (body : Nat → σ → Res (Step σ)) (f : Nat → σ → σ) (k : Nat) (hk : k < n) (hb : ∀ i s, i < k → body i s = .ok ⟨f i s, i, false⟩)
    (hs : ∀ s, body k s = .ok ⟨f k s, k, true⟩) (fuel : Nat) (hf : k < fuel) (st : σ) :
    forEach n body fuel st = some (.ok ((List.range (k + 1)).foldl (fun s i => f i s) st, k)) := by
  unfold forEach
  rw [run_break n body f k hk hb hs k 0 fuel st (by omega) hf, List.range_succ, List.foldl_append, List.range_eq_range']
  rfl

/-- A loop over all the spectra inside of the body of another one. -/
def nestedBody (n : Nat) (inner : Nat → σ → Res (Step σ)) (cur : Nat) (st : σ) : Res (Step σ) := match forEach n inner (n + 1) st with
  | some (.ok r) => .ok ⟨r.1, r.2, false⟩
  | some (.throw e) => .throw e
  | _ => .ub

/-- **C80** A loop over the spectra whose body makes a complete loop over the spectra never ends: the shared index steps over the end. -/
theorem C80_nested_counterexample (n : Nat) (hn : 0 < n) (inner : Nat → σ → Res (Step σ)) (f : Nat → σ → σ)
    (hi : ∀ i s, i < n → inner i s = .ok ⟨f i s, i, false⟩) (fuel : Nat) (st : σ) : forEach n (nestedBody n inner) fuel st = none := by
  have key : ∀ fuel cur st, cur ≠ n → run n (nestedBody n inner) fuel cur st = none := by
    intro fuel
    induction fuel with
    | zero => intro cur st _; rfl
    | succ fuel ih =>
      intro cur st hc
      unfold run
      rw [if_neg hc]
      unfold nestedBody
      rw [(C80_visit n inner f hi (n + 1) (by omega) st (List.replicate n ()) (by simp)).1]
      simp only [Bool.false_eq_true, if_false]
      exact ih (n + 1) _ (by omega)
  exact key fuel 0 st (by omega)

/-! ## Flags over all the spectra -/

/-- Is element `elt` of every spectrum flagged? -/
def AllOut (es : List (List EltSup.Elt)) (elt : Nat) (out : EltSup.Elt → Bool) : Prop := ∀ l ∈ es, ∀ e, l[elt]? = some e → out e = true

theorem computeOut_spec (es : List (List EltSup.Elt)) (elt : Nat) (out : EltSup.Elt → Bool) (hl : ∀ l ∈ es, elt < l.length) :
    ∃ r, computeOut! es elt out = .ok r ∧ (r.1 = true ↔ AllOut es elt out) ∧ (r.1 = true → r.2 = es.length) ∧
      (r.1 = false → r.2 < es.length ∧ ∃ l e, es[r.2]? = some l ∧ l[elt]? = some e ∧ out e = false ∧
        ∀ i l' e', i < r.2 → es[i]? = some l' → l'[elt]? = some e' → out e' = true) := by
  have hbody : ∀ i (hi : i < es.length) s, outBody es elt out i s =
      .ok (if out ((es[i])[elt]'(hl _ (List.getElem_mem _))) then ⟨s, i, false⟩ else ⟨false, i, true⟩) := by
    intro i hi s
    unfold outBody elementList
    rw [List.getElem?_eq_getElem hi]
    simp only
    rw [Res.bind_ok, Res.at_of_lt (hl _ (List.getElem_mem _)), Res.bind_ok]
  by_cases h : ∀ i (hi : i < es.length), out ((es[i])[elt]'(hl _ (List.getElem_mem _))) = true
  · have := (C80_visit es.length (outBody es elt out) (fun _ s => s) (fun i s hi => by rw [hbody i hi, h i hi]; simp) (es.length + 1) (by omega)
      true es rfl).1
    have hf : ∀ (l : List Nat) (b : Bool), l.foldl (fun s _ => s) b = b := by
      intro l; induction l with
      | nil => intro b; rfl
      | cons a l ih => intro b; exact ih b
    rw [hf] at this
    refine ⟨(true, es.length), ?_, ?_, fun _ => rfl, by simp⟩
    · unfold computeOut! computeOut
      rw [this]
    · simp only [true_iff]
      intro l hlm e he
      obtain ⟨i, hi, rfl⟩ := List.getElem_of_mem hlm
      rw [List.getElem?_eq_getElem (hl _ hlm), Option.some.injEq] at he
      rw [← he]
      exact h i hi
  · have hex : ∃ i, ∃ hi : i < es.length, out ((es[i])[elt]'(hl _ (List.getElem_mem _))) = false := by
      by_contra hc
      refine h fun i hi => ?_
      by_contra hn
      exact hc ⟨i, hi, by simpa using hn⟩
    classical
    obtain ⟨k, ⟨hk, hko⟩, hmin⟩ : ∃ k, (∃ hi : k < es.length, out ((es[k])[elt]'(hl _ (List.getElem_mem _))) = false) ∧
        ∀ i, i < k → ¬ ∃ hi : i < es.length, out ((es[i])[elt]'(hl _ (List.getElem_mem _))) = false :=
      ⟨Nat.find hex, Nat.find_spec hex, fun i hi => Nat.find_min hex hi⟩
    have hlt : ∀ i (hi : i < es.length), i < k → out ((es[i])[elt]'(hl _ (List.getElem_mem _))) = true := by
      intro i hi hik
      by_contra hn
      exact hmin i hik ⟨hi, by simpa using hn⟩
    have := C80_break es.length (outBody es elt out) (fun i s => if i = k then false else s) k hk
      (fun i s hik => by rw [hbody i (by omega), hlt i (by omega) hik, if_neg (by omega : ¬ i = k)]; simp)
      (fun s => by rw [hbody k hk, hko]; simp) (es.length + 1) (by omega) true
    rw [List.range_succ, List.foldl_append] at this
    simp only [List.foldl_cons, List.foldl_nil, if_true] at this
    refine ⟨(false, k), ?_, ?_, by simp, fun _ => ⟨hk, es[k], _, List.getElem?_eq_getElem hk, List.getElem?_eq_getElem (hl _ (List.getElem_mem _)), hko, ?_⟩⟩
    · unfold computeOut! computeOut
      rw [this]
    · simp only [Bool.false_eq_true, false_iff]
      intro ha
      have := ha es[k] (List.getElem_mem _) _ (List.getElem?_eq_getElem (hl _ (List.getElem_mem _)))
      rw [hko] at this
      exact absurd this (by simp)
    · intro i l' e' hik h1 h2
      obtain ⟨hi, rfl⟩ := List.getElem?_eq_some_iff.1 h1
      rw [List.getElem?_eq_getElem (hl _ (List.getElem_mem _)), Option.some.injEq] at h2
      rw [← h2]
      exact hlt i hi hik

theorem lines_spec (es : List (List EltSup.Elt)) (elt : Nat) (hl : ∀ l ∈ es, elt < l.length) (n c0 : Nat) :
    ∃ s, Res.foldN (fun line (s : List Bool × Nat) => computeOut! es elt (fun e => (e.theo line).out) >>= fun ol => .ok (s.1 ++ [ol.1], ol.2)) 0 n ([], c0) = .ok s ∧
      s.1.length = n ∧ (∀ (j : Nat) b, s.1[j]? = some b → (b = true ↔ AllOut es elt fun e => (e.theo j).out)) := by
  obtain ⟨s, h1, h2⟩ := Res.foldN_inv (fun k (s : List Bool × Nat) => s.1.length = k ∧ ∀ (j : Nat) b, s.1[j]? = some b →
      (b = true ↔ AllOut es elt fun e => (e.theo j).out)) n 0 (([], c0) : List Bool × Nat) ⟨rfl, by simp⟩
    (f := fun line (s : List Bool × Nat) => computeOut! es elt (fun e => (e.theo line).out) >>= fun ol => .ok (s.1 ++ [ol.1], ol.2))
    (by
      intro i s _ _ ⟨p1, p2⟩
      obtain ⟨r, r1, r2, _⟩ := computeOut_spec es elt (fun e => (e.theo i).out) hl
      refine ⟨(s.1 ++ [r.1], r.2), by rw [r1]; rfl, by simp [p1], fun j b hj => ?_⟩
      simp only at hj
      by_cases h : j < s.1.length
      · rw [List.getElem?_append_left h] at hj
        exact p2 j b hj
      · rw [List.getElem?_append_right (by omega)] at hj
        have : j = i := by
          by_contra hc
          rw [List.getElem?_eq_none (by simp; omega)] at hj
          exact absurd hj (by simp)
        subst this
        rw [p1, Nat.sub_self, List.getElem?_cons_zero, Option.some.injEq] at hj
        rw [← hj]
        exact r2)
  rw [Nat.zero_add] at h2
  exact ⟨s, h1, h2.1, h2.2⟩

/-- **C80** The flags over all the spectra: an element (a line) is outside exactly when it is outside in every spectrum. -/
theorem C80_flags (es : List (List EltSup.Elt)) : ∀ (sizes : List Nat) (k cur : Nat), (∀ l ∈ es, l.length = k + sizes.length) →
    ∃ r, setGlobal es sizes k cur = .ok r ∧ r.1.length = sizes.length ∧
      ∀ (i : Nat) n x, sizes[i]? = some n → r.1[i]? = some x → (x.1 = true ↔ AllOut es (k + i) fun e => e.outside) ∧ x.2.length = n ∧
        ∀ (j : Nat) b, x.2[j]? = some b → (b = true ↔ AllOut es (k + i) fun e => (e.theo j).out) := by
  intro sizes
  induction sizes with
  | nil => intro k cur _; exact ⟨([], cur), rfl, rfl, by simp⟩
  | cons n sizes ih =>
    intro k cur hl
    have hk : ∀ l ∈ es, k < l.length := fun l h => by have := hl l h; simp at this; omega
    obtain ⟨o, o1, o2, _⟩ := computeOut_spec es k (fun e => e.outside) hk
    obtain ⟨s, s1, s2, s3⟩ := lines_spec es k hk n o.2
    obtain ⟨r, r1, r2, r3⟩ := ih (k + 1) s.2 (fun l h => by have := hl l h; simp at this; omega)
    refine ⟨((o.1, s.1) :: r.1, r.2), ?_, by simp [r2], ?_⟩
    · unfold setGlobal
      rw [o1, Res.bind_ok, s1, Res.bind_ok, r1, Res.bind_ok]
    · intro i m x hm hx
      cases i with
      | zero =>
        simp only [List.getElem?_cons_zero, Option.some.injEq] at hm hx
        subst hm hx
        exact ⟨o2, s2, s3⟩
      | succ i =>
        simp only [List.getElem?_cons_succ] at hm hx
        have := r3 i m x hm hx
        rw [show k + 1 + i = k + (i + 1) by omega] at this
        exact this

/-- **C80** An element is flagged outside over all the spectra exactly when all its lines are. -/
theorem C80_flags_lines (es : List (List EltSup.Elt)) (i n : Nat) (hn : ∀ l ∈ es, ∀ e, l[i]? = some e → e.n = n) :
    (AllOut es i fun e => e.outside) ↔ ∀ j, j < n → AllOut es i fun e => (e.theo j).out := by
  unfold AllOut EltSup.Elt.outside
  constructor
  · intro h j hj l hl e he
    have := h l hl e he
    rw [List.all_eq_true] at this
    exact this j (List.mem_range.2 (by rw [hn l hl e he]; exact hj))
  · intro h l hl e he
    rw [List.all_eq_true]
    intro j hj
    exact h j (by rw [← hn l hl e he]; exact List.mem_range.1 hj) l hl e he

open Classical in
/-- **C80** The number of parameters of the line model: the elements seen in a spectrum with a positive amplitude. -/
theorem C80_nddl {K : Type} [Field K] [LinearOrder K] [IsStrictOrderedRing K] (outs : List Bool) (fas : List (List (Option K))) (hl : outs.length = fas.length) :
    nonZeroNDdl outs fas = .ok ((outs.zip fas).countP fun x => !x.1 && decide (∃ a : K, some a ∈ x.2 ∧ 0 < a)) := by
  have hnull : ∀ fa : List (Option K), allNull fa = !decide (∃ a : K, some a ∈ fa ∧ 0 < a) := by
    intro fa
    unfold allNull
    congr 1
    rw [Bool.eq_iff_iff, List.any_eq_true, decide_eq_true_iff]
    constructor
    · rintro ⟨x, hx, h⟩
      cases x with
      | none => exact absurd h (by simp)
      | some a => exact ⟨a, hx, by simpa using h⟩
    · rintro ⟨a, ha, h⟩
      exact ⟨some a, ha, by simpa using h⟩
  unfold nonZeroNDdl
  obtain ⟨s, h1, h2⟩ := Res.foldN_inv (fun k (s : Nat) => s = ((outs.zip fas).take k).countP fun x => !x.1 && decide (∃ a : K, some a ∈ x.2 ∧ 0 < a))
    fas.length 0 0 (by simp)
    (f := fun i n => Res.at_ outs i >>= fun o => if o then .ok n else Res.at_ fas i >>= fun fa => .ok (if allNull fa then n else n + 1))
    (by
      intro i s _ hi hs
      have hi1 : i < outs.length := by omega
      have hi2 : i < fas.length := by omega
      have hz : i < (outs.zip fas).length := by simp; omega
      refine ⟨if outs[i] then s else (if allNull fas[i] then s else s + 1), ?_, ?_⟩
      · rw [Res.at_of_lt hi1, Res.bind_ok]
        cases outs[i]
        · rw [Res.at_of_lt hi2]; rfl
        · rfl
      · rw [List.take_add_one, List.getElem?_eq_getElem hz, List.countP_append, ← hs, List.getElem_zip, hnull]
        by_cases hq : ∃ a : K, some a ∈ fas[i] ∧ 0 < a
        · rw [decide_eq_true hq]
          cases outs[i] <;> simp [Option.toList, decide_eq_true hq, -exists_and_left, -decide_eq_true_eq, -Bool.decide_and]
        · rw [decide_eq_false hq]
          cases outs[i] <;> simp [Option.toList, decide_eq_false hq])
  rw [h1, h2, Nat.zero_add, List.take_of_length_le (by simp)]

/-! ## Concrete cases -/

/-- An element with one line. -/
def exE (o : Bool) : EltSup.Elt := ⟨1, fun _ => ⟨0, 0, o⟩, ⟨fun _ => 0, fun _ => 0, fun _ _ => true⟩⟩

example : setGlobal [[exE true, exE true], [exE false, exE true]] [1, 1] 0 0 = .ok ([(false, [false]), (true, [true])], 2) := by decide +kernel

/-- Computing the flags leaves the shared index after the last spectrum when the last line is outside of all of them: reading the current
spectrum then fails. -/
theorem C80_stale_counterexample :
    (setGlobal [[exE true, exE true], [exE false, exE true]] [1, 1] 0 0).bind (fun r => current 2 r.2 [10, 11]) = .throw .INVALID_SPECTRUM_INDEX := by
  decide +kernel

example : nonZeroNDdl [false, true, false] [[none, some (1 : ℚ)], [some 1], [some 0]] = .ok 1 := by decide +kernel

example : (forEach 3 (fun i (s : List Nat) => .ok ⟨s ++ [i], i, decide (i = 1)⟩) 5 []).bind (fun r => match r with
    | .ok x => some x
    | _ => none) = some ([0, 1], 1) := by decide +kernel

end SpcIndex
end Amazed
