import Verif.Props.LineMatchProps

set_option linter.unusedSectionVars false
set_option linter.unusedVariables false

/-! # The queries of a result of line matching and the rules (C124, C125, C126) -/

namespace Amazed
namespace LineMatch
open Amp (LType Force)
open LineCat (Line Cat)
open LineDetect (Det Quo Spc)

variable {K : Type} [Field K] [LinearOrder K] [IsStrictOrderedRing K]

/-! ## Specification -/

open Classical in
/-- The number of matches of the solution with a line nearer than 0.11 to a strong emission line of the catalogue. -/
noncomputable def strongMatches (rest : Cat K) (s : List (Sol K)) : Nat :=
  (s.filter fun x => decide (∃ l ∈ rest, l.2.type = .emission ∧ l.2.force = .strong ∧ |x.rest.pos - l.2.pos| < 11 / 100)).length

/-- The mean of the redshifts of the matches of a solution. -/
def MeanZ (s : List (Sol K)) (z : K) : Prop := z * (s.length : K) = (s.map (·.z)).sum

/-- `s` is the best solution: among those of at least two lines it has the most strong lines, then the most lines, and it is the
first such. -/
structure Best (rest : Cat K) (sets : List (List (Sol K))) (s : List (Sol K)) : Prop where
  ex : ∃ pre post, sets = pre ++ s :: post ∧ 2 ≤ s.length ∧
    (∀ t ∈ pre, 2 ≤ t.length → strongMatches rest t < strongMatches rest s ∨
      (strongMatches rest t = strongMatches rest s ∧ t.length < s.length)) ∧
    (∀ t ∈ post, 2 ≤ t.length → strongMatches rest t < strongMatches rest s ∨
      (strongMatches rest t = strongMatches rest s ∧ t.length ≤ s.length))

/-! ## C124: the best solutions -/

theorem nStrong_eq (rest : Cat K) (h : LineCat.Ok rest) (s : List (Sol K)) : nStrong rest s = strongMatches rest s := by
  classical
  unfold nStrong strongMatches
  congr 1
  apply List.filter_congr
  intro x _
  rw [Bool.eq_iff_iff, List.any_eq_true, decide_eq_true_iff, (LineCat.C78_filtered .emission .strong rest h).1]
  constructor
  · rintro ⟨l, hl, hd⟩
    rw [List.mem_filter] at hl
    have h2 := hl.2
    simp only [Bool.and_eq_true, Bool.or_eq_true, decide_eq_true_eq, reduceCtorEq, false_or] at h2
    exact ⟨l, hl.1, h2.1.symm, h2.2.symm, of_decide_eq_true hd⟩
  · rintro ⟨l, hl, h1, h2, h3⟩
    exact ⟨l, List.mem_filter.2 ⟨hl, by simp [h1, h2]⟩, decide_eq_true h3⟩

/-- The state of the loop after `pre`. -/
def BestSo (rest : Cat K) (pre : List (List (Sol K))) (b : Option (List (Sol K))) : Prop :=
  match b with
  | none => pre = []
  | some s => ∃ p q, pre = p ++ s :: q ∧
      (∀ t ∈ p, nStrong rest t < nStrong rest s ∨ (nStrong rest t = nStrong rest s ∧ t.length < s.length)) ∧
      (∀ t ∈ q, nStrong rest t < nStrong rest s ∨ (nStrong rest t = nStrong rest s ∧ t.length ≤ s.length))

theorem bestSo_step (rest : Cat K) (pre : List (List (Sol K))) (b : Option (List (Sol K))) (s : List (Sol K))
    (h : BestSo rest pre b) : BestSo rest (pre ++ [s]) (bestStep rest b s) := by
  cases b with
  | none =>
    have h' : pre = [] := h
    subst h'
    show BestSo rest _ (some s)
    exact ⟨[], [], rfl, by simp, by simp⟩
  | some b =>
    obtain ⟨p, q, e, h1, h2⟩ := h
    unfold bestStep
    simp only
    have hall : ∀ t ∈ pre, nStrong rest t < nStrong rest b ∨ (nStrong rest t = nStrong rest b ∧ t.length ≤ b.length) := by
      intro t ht
      rw [e] at ht
      rcases List.mem_append.1 ht with ht | ht
      · rcases h1 t ht with h | ⟨h, h'⟩
        · exact Or.inl h
        · exact Or.inr ⟨h, h'.le⟩
      · rcases List.mem_cons.1 ht with rfl | ht
        · exact Or.inr ⟨rfl, le_rfl⟩
        · exact h2 t ht
    by_cases c1 : nStrong rest s > nStrong rest b
    · rw [if_pos c1]
      refine ⟨pre, [], rfl, ?_, by simp⟩
      intro t ht
      rcases hall t ht with h | ⟨h, h'⟩ <;> left <;> omega
    · rw [if_neg c1]
      by_cases c2 : nStrong rest s = nStrong rest b ∧ s.length > b.length
      · rw [if_pos c2]
        refine ⟨pre, [], rfl, ?_, by simp⟩
        intro t ht
        rcases hall t ht with h | ⟨h, h'⟩
        · left; omega
        · right; omega
      · rw [if_neg c2]
        refine ⟨p, q ++ [s], by rw [e]; simp, h1, ?_⟩
        intro t ht
        rcases List.mem_append.1 ht with ht | ht
        · exact h2 t ht
        · rw [List.mem_singleton] at ht
          subst ht
          by_cases hn : nStrong rest t = nStrong rest b
          · right; exact ⟨hn, by by_contra hc; exact c2 ⟨hn, by omega⟩⟩
          · left; omega

theorem bestSo_fold (rest : Cat K) : ∀ (l pre : List (List (Sol K))) (b : Option (List (Sol K))), BestSo rest pre b →
    BestSo rest (pre ++ l) (l.foldl (bestStep rest) b)
  | [], pre, b, h => by simpa using h
  | s :: l, pre, b, h => by
    rw [List.foldl_cons]
    have := bestSo_fold rest l (pre ++ [s]) _ (bestSo_step rest pre b s h)
    simpa using this

/-- An element of a filtered list, with the parts of the list around it. -/
theorem filter_split {α : Type} (f : α → Bool) : ∀ (l p : List α) (s : α) (q : List α), l.filter f = p ++ s :: q →
    ∃ p' q', l = p' ++ s :: q' ∧ p'.filter f = p ∧ q'.filter f = q ∧ f s = true
  | [], p, s, q, h => by simp at h
  | a :: l, p, s, q, h => by
    by_cases ha : f a = true
    · rw [List.filter_cons_of_pos ha] at h
      cases p with
      | nil =>
        simp only [List.nil_append, List.cons.injEq] at h
        exact ⟨[], l, by simp [h.1], rfl, h.2, h.1 ▸ ha⟩
      | cons b p =>
        simp only [List.cons_append, List.cons.injEq] at h
        obtain ⟨p', q', e, h1, h2, h3⟩ := filter_split f l p s q h.2
        exact ⟨a :: p', q', by rw [e]; rfl, by rw [List.filter_cons_of_pos ha, h1, h.1], h2, h3⟩
    · rw [List.filter_cons_of_neg ha] at h
      obtain ⟨p', q', e, h1, h2, h3⟩ := filter_split f l p s q h
      exact ⟨a :: p', q', by rw [e]; rfl, by rw [List.filter_cons_of_neg ha, h1], h2, h3⟩

theorem mean_spec (s : List (Sol K)) (h : 0 < s.length) : MeanZ s (mean s) := by
  unfold MeanZ mean
  have : (s.length : K) ≠ 0 := by
    have : (0 : K) < s.length := by exact_mod_cast h
    exact this.ne'
  field_simp

/-- **C124**: the redshift given as the best is the mean of the solution that, among those of at least two lines, has the most
strong lines, then the most lines, the first such; there is none exactly if no solution has two lines. -/
theorem C124_best (rest : Cat K) (hr : LineCat.Ok rest) (sets : List (List (Sol K))) :
    (∀ z n, bestRedshift rest sets = some (z, n) → ∃ s, Best rest sets s ∧ MeanZ s z ∧ n = s.length) ∧
      (bestRedshift rest sets = none ↔ ∀ s ∈ sets, s.length < 2) := by
  have H := bestSo_fold rest (over sets 1) [] none rfl
  rw [List.nil_append] at H
  have hov : ∀ s : List (Sol K), decide (0 ≤ (1 : ℤ) ∧ (1 : ℤ) < (s.length : ℤ)) = true ↔ 2 ≤ s.length := by
    intro s
    rw [decide_eq_true_iff]
    omega
  unfold bestRedshift
  constructor
  · intro z n h
    cases hb : (over sets 1).foldl (bestStep rest) none with
    | none => rw [hb] at h; simp at h
    | some s =>
      rw [hb] at h H
      simp only [Option.map_some, Option.some.injEq, Prod.mk.injEq] at h
      obtain ⟨p, q, e, h1, h2⟩ := H
      obtain ⟨p', q', e', g1, g2, g3⟩ := filter_split _ sets p s q e
      have hs2 : 2 ≤ s.length := (hov s).1 g3
      refine ⟨s, ⟨p', q', e', hs2, ?_, ?_⟩, h.1 ▸ mean_spec s (by omega), h.2.symm⟩
      · intro t ht ht2
        rw [← nStrong_eq rest hr, ← nStrong_eq rest hr]
        exact h1 t (by rw [← g1]; exact List.mem_filter.2 ⟨ht, (hov t).2 ht2⟩)
      · intro t ht ht2
        rw [← nStrong_eq rest hr, ← nStrong_eq rest hr]
        exact h2 t (by rw [← g2]; exact List.mem_filter.2 ⟨ht, (hov t).2 ht2⟩)
  · rw [Option.map_eq_none_iff]
    constructor
    · intro h s hs
      rw [h] at H
      have H' : over sets 1 = [] := H
      by_contra hc
      have : s ∈ over sets 1 := List.mem_filter.2 ⟨hs, (hov s).2 (by omega)⟩
      rw [H'] at this
      simp at this
    · intro h
      have : over sets 1 = [] := by
        rw [List.eq_nil_iff_forall_not_mem]
        intro s hs
        have := (hov s).1 (List.mem_filter.1 hs).2
        have := h s (List.mem_filter.1 hs).1
        omega
      rw [this]
      rfl

theorem max_fold : ∀ (l : List (List (Sol K))) (m : ℤ),
    let r := l.foldl (fun m s => if m < (s.length : ℤ) then (s.length : ℤ) else m) m
    m ≤ r ∧ (∀ s ∈ l, (s.length : ℤ) ≤ r) ∧ (r = m ∨ ∃ s ∈ l, r = s.length)
  | [], m => by simp
  | s :: l, m => by
    simp only [List.foldl_cons]
    obtain ⟨h1, h2, h3⟩ := max_fold l (if m < (s.length : ℤ) then (s.length : ℤ) else m)
    have hm : m ≤ (if m < (s.length : ℤ) then (s.length : ℤ) else m) ∧ (s.length : ℤ) ≤ (if m < (s.length : ℤ) then (s.length : ℤ) else m) := by
      split <;> omega
    refine ⟨hm.1.trans h1, ?_, ?_⟩
    · intro t ht
      rcases List.mem_cons.1 ht with rfl | ht
      · exact hm.2.trans h1
      · exact h2 t ht
    · rcases h3 with h3 | ⟨t, ht, h3⟩
      · rw [h3]
        split
        · exact Or.inr ⟨s, by simp, rfl⟩
        · exact Or.inl rfl
      · exact Or.inr ⟨t, List.mem_cons_of_mem _ ht, h3⟩

/-- **C124**: the redshift of the highest matching number is the mean of the first solution that no other one exceeds in number of
lines, and this number is given; there is none exactly if there is no solution (the solutions of a matching are not empty). -/
theorem C124_match_num (sets : List (List (Sol K))) (hne : ∀ s ∈ sets, s ≠ []) :
    (∀ z n, bestMatchNum sets = some (z, n) → ∃ pre s post, sets = pre ++ s :: post ∧ MeanZ s z ∧ n = s.length ∧
      (∀ t ∈ pre, t.length < s.length) ∧ (∀ t ∈ post, t.length ≤ s.length)) ∧
    (bestMatchNum sets = none ↔ sets = []) := by
  by_cases he : sets = []
  · subst he
    constructor
    · intro z n h
      simp [bestMatchNum, over] at h
    · simp [bestMatchNum, over]
  · have hl : ¬ sets.length < 1 := by
      have := List.length_pos_of_ne_nil he
      omega
    have hmax : maxNumber sets = sets.foldl (fun m s => if m < (s.length : ℤ) then (s.length : ℤ) else m) 0 := if_neg hl
    obtain ⟨h1, h2, h3⟩ := max_fold sets 0
    rw [← hmax] at h1 h2 h3
    have hex : ∃ s ∈ sets, maxNumber sets = s.length := by
      rcases h3 with h3 | h3
      · exfalso
        obtain ⟨s, hs⟩ := List.exists_mem_of_ne_nil _ he
        have := h2 s hs
        have := List.length_pos_of_ne_nil (hne s hs)
        omega
      · exact h3
    obtain ⟨s0, hs0, e0⟩ := hex
    have hpos := List.length_pos_of_ne_nil (hne s0 hs0)
    have hov : ∀ s : List (Sol K), decide (0 ≤ maxNumber sets - 1 ∧ maxNumber sets - 1 < (s.length : ℤ)) = true ↔ maxNumber sets ≤ s.length := by
      intro s
      rw [decide_eq_true_iff]
      omega
    have hmem : s0 ∈ over sets (maxNumber sets - 1) := List.mem_filter.2 ⟨hs0, (hov s0).2 e0.le⟩
    unfold bestMatchNum
    cases hv : over sets (maxNumber sets - 1) with
    | nil => rw [hv] at hmem; simp at hmem
    | cons s q =>
      obtain ⟨p', q', e', g1, g2, g3⟩ := filter_split _ sets [] s q hv
      have hs : s ∈ sets := by rw [e']; simp
      have hsl : maxNumber sets = s.length := le_antisymm ((hov s).1 g3) (h2 s hs)
      refine ⟨?_, by simp [he]⟩
      intro z n h
      simp only [Option.some.injEq, Prod.mk.injEq] at h
      refine ⟨p', s, q', e', h.1 ▸ mean_spec s (List.length_pos_of_ne_nil (hne s hs)), by rw [← h.2, hsl], ?_, ?_⟩
      · intro t ht
        by_contra hc
        have : t ∈ p'.filter (fun s => decide (0 ≤ maxNumber sets - 1 ∧ maxNumber sets - 1 < (s.length : ℤ))) :=
          List.mem_filter.2 ⟨ht, (hov t).2 (by omega)⟩
        rw [g1] at this
        simp at this
      · intro t ht
        have := h2 t (by rw [e']; simp [ht])
        omega

/-- **C124**: the selection over a number that is not negative gives, in order, the solutions with more lines than this number, and
the list of their means; over a negative number it gives none, though every solution has more lines. -/
theorem C124_over (sets : List (List (Sol K))) (n : ℤ) :
    (0 ≤ n → averages sets n = (sets.filter fun s => decide (n < (s.length : ℤ))).map fun s => (s.map (·.z)).sum / (s.length : K)) ∧
      (n < 0 → averages sets n = []) := by
  constructor
  · intro h
    unfold averages over mean
    simp [h]
  · intro h
    have h' : ¬ 0 ≤ n := by omega
    unfold averages over
    simp [h']

/-- **C124**: the mean redshift by index is the mean of that solution, -1 outside the list; for an empty list the access is
undefined whatever the index. -/
theorem C124_by_index (sets : List (List (Sol K))) (hne : ∀ s ∈ sets, s ≠ []) (i : ℤ) :
    (∀ (k : ℕ) s, i = k → sets[k]? = some s → ∃ z, meanByIndex sets i = .ok z ∧ MeanZ s z) ∧
      (sets ≠ [] → (i < 0 ∨ (sets.length : ℤ) ≤ i) → meanByIndex sets i = .ok (-1)) ∧ (sets = [] → meanByIndex sets i = .ub) := by
  refine ⟨?_, ?_, ?_⟩
  · intro k s hi hs
    obtain ⟨hk, hs'⟩ := List.getElem?_eq_some_iff.1 hs
    have hsne := hne s (hs' ▸ List.getElem_mem hk)
    refine ⟨mean s, ?_, mean_spec s (List.length_pos_of_ne_nil hsne)⟩
    unfold meanByIndex
    rw [if_neg (by omega), if_neg (by omega), hi, Int.toNat_natCast, Res.at_eq_ok.2 hs, Res.bind_ok]
    have := List.length_pos_of_ne_nil hsne
    rw [if_neg (by omega)]
  · intro h1 h2
    unfold meanByIndex
    have := List.length_pos_of_ne_nil h1
    rw [if_pos ⟨by omega, by omega⟩]
  · rintro rfl
    unfold meanByIndex
    rw [if_neg (by simp)]
    split
    · rfl
    · rfl

/-! ## C125: the redshifts around the solutions -/

/-- A sort of numbers. -/
structure SortsNum (srt : List K → List K) : Prop where
  perm : ∀ l, (srt l).Perm l
  sorted : ∀ l, (srt l).Pairwise (· ≤ ·)

theorem uniq_go_spec : ∀ (l : List K) (a : K), (a :: l).Pairwise (· ≤ ·) →
    (a :: uniq.go a l).Pairwise (· < ·) ∧ ∀ x, x ∈ a :: uniq.go a l ↔ x ∈ a :: l
  | [], a, _ => by simp [uniq.go]
  | y :: ys, a, h => by
    unfold uniq.go
    have hay : a ≤ y := (List.pairwise_cons.1 h).1 y (by simp)
    have htail := (List.pairwise_cons.1 h).2
    by_cases e : a = y
    · subst e
      rw [if_pos rfl]
      obtain ⟨h1, h2⟩ := uniq_go_spec ys a htail
      exact ⟨h1, fun x => by rw [h2]; simp⟩
    · rw [if_neg e]
      obtain ⟨h1, h2⟩ := uniq_go_spec ys y htail
      have hlt : a < y := lt_of_le_of_ne hay e
      refine ⟨List.pairwise_cons.2 ⟨?_, h1⟩, fun x => by rw [List.mem_cons, h2, List.mem_cons (b := a)]⟩
      intro x hx
      rcases List.mem_cons.1 hx with rfl | hx'
      · exact hlt
      · exact hlt.trans ((List.pairwise_cons.1 h1).1 x hx')

theorem uniq_spec (l : List K) (h : l.Pairwise (· ≤ ·)) : (uniq l).Pairwise (· < ·) ∧ ∀ x, x ∈ uniq l ↔ x ∈ l := by
  cases l with
  | nil => simp [uniq]
  | cons a l => exact uniq_go_spec l a h

theorem trunc_spec [FloorRing K] (x : K) (h : 0 ≤ x) (m : ℤ) : LineDetect.trunc x = m ↔ (m : K) ≤ x ∧ x < m + 1 := by
  unfold LineDetect.trunc
  rw [if_pos h, Int.floor_eq_iff]

/-- **C125**: the rounded redshifts are, in the order of the solutions with more than `n` lines, the multiples of the step nearest
to their means (the larger of two), for a positive step and means that are not negative. -/
theorem C125_rounded [FloorRing K] (sets : List (List (Sol K))) (n : ℤ) (hn : 0 ≤ n) (step : K) (hs : 0 < step)
    (hz : ∀ s ∈ sets, 0 ≤ (s.map (·.z)).sum / (s.length : K)) :
    ∃ l, rounded sets n step = .ok l ∧
      List.Forall₂ (fun (s : List (Sol K)) r => ∃ m : ℤ, r = m * step ∧ r - step / 2 ≤ (s.map (·.z)).sum / (s.length : K) ∧
        (s.map (·.z)).sum / (s.length : K) < r + step / 2) (sets.filter fun s => decide (n < (s.length : ℤ))) l := by
  refine ⟨_, if_neg (by rintro ⟨h, _⟩; exact hs.ne' h), ?_⟩
  rw [(C124_over sets n).1 hn, List.map_map, List.forall₂_map_right_iff, List.forall₂_same]
  intro s hmem
  have h0 := hz s (List.mem_filter.1 hmem).1
  simp only [Function.comp]
  generalize (s.map (·.z)).sum / (s.length : K) = z at h0 ⊢
  have hnn : 0 ≤ z / step + 1 / 2 := by positivity
  obtain ⟨h1, h2⟩ := (trunc_spec _ hnn _).1 (rfl : LineDetect.trunc (z / step + 1 / 2) = _)
  refine ⟨_, rfl, ?_, ?_⟩
  · have := mul_le_mul_of_nonneg_right h1 hs.le
    have e : (z / step + 1 / 2) * step = z + step / 2 := by field_simp
    linarith
  · have := mul_lt_mul_of_pos_right h2 hs
    have e : (z / step + 1 / 2) * step = z + step / 2 := by field_simp
    linarith

theorem rounded_ok [FloorRing K] (sets : List (List (Sol K))) (n : ℤ) (step : K) (hs : 0 < step) :
    rounded sets n step = .ok ((averages sets n).map fun z => (LineDetect.trunc (z / step + 1 / 2) : K) * step) :=
  if_neg (by rintro ⟨h, _⟩; exact hs.ne' h)

theorem half_spec [FloorRing K] (width step : K) (hs : 0 < step) (k : ℤ) :
    (-LineDetect.trunc (width / step / 2) ≤ k ∧ k < LineDetect.trunc (width / step / 2)) ↔
      (-width ≤ 2 * k * step ∧ 2 * ((k : K) + 1) * step ≤ width) := by
  have e : ∀ t : K, t ≤ width / step / 2 ↔ 2 * t * step ≤ width := by
    intro t
    rw [le_div_iff₀ (by norm_num : (0 : K) < 2), le_div_iff₀ hs]
    constructor <;> intro h <;> nlinarith
  unfold LineDetect.trunc
  by_cases h0 : 0 ≤ width / step / 2
  · rw [if_pos h0]
    have a : -⌊width / step / 2⌋ ≤ k ↔ -width ≤ 2 * k * step := by
      rw [neg_le, Int.le_floor, e]
      push_cast
      constructor <;> intro h <;> linarith
    have b : k < ⌊width / step / 2⌋ ↔ 2 * ((k : K) + 1) * step ≤ width := by
      rw [← Int.add_one_le_iff, Int.le_floor, e]
      push_cast
      rfl
    rw [a, b]
  · rw [if_neg h0]
    push Not at h0
    constructor
    · rintro ⟨h1, h2⟩
      have : ⌈width / step / 2⌉ ≤ 0 := Int.ceil_le.2 (by simpa using h0.le)
      omega
    · rintro ⟨h1, h2⟩
      exfalso
      have hw : width < 0 := by
        by_contra hc
        push Not at hc
        exact absurd (by positivity : (0 : K) ≤ width / step / 2) (not_le.2 h0)
      have : (k : K) < 0 := by nlinarith
      have hk : k ≤ -1 := by
        have : k < 0 := by exact_mod_cast this
        omega
      have : (k : K) ≤ -1 := by exact_mod_cast hk
      nlinarith

/-- **C125**: the extended list is strictly increasing, and its elements are the multiples of the step `(m + k) · step` where
`m · step` is the multiple nearest to the mean redshift of a solution with more than `n` lines, and `k` steps are at least minus
half the width while `k + 1` steps are at most half of it: the upper end is left out. -/
theorem C125_extended [FloorRing K] (srt : List K → List K) (hsrt : SortsNum srt) (sets : List (List (Sol K))) (n : ℤ) (hn : 0 ≤ n)
    (step width : K) (hs : 0 < step) (hz : ∀ s ∈ sets, 0 ≤ (s.map (·.z)).sum / (s.length : K)) :
    ∃ l, extended srt sets n step width = .ok l ∧ l.Pairwise (· < ·) ∧
      ∀ x, x ∈ l ↔ ∃ s ∈ sets, n < (s.length : ℤ) ∧ ∃ m k : ℤ,
        (m : K) * step - step / 2 ≤ (s.map (·.z)).sum / (s.length : K) ∧ (s.map (·.z)).sum / (s.length : K) < m * step + step / 2 ∧
        -(width / 2) ≤ k * step ∧ (k + 1) * step ≤ width / 2 ∧ x = (m + k) * step := by
  refine ⟨_, by unfold extended; rw [rounded_ok sets n step hs, Res.bind_ok, if_neg hs.ne'], ?_, ?_⟩
  · exact (uniq_spec _ (hsrt.sorted _)).1
  · intro x
    rw [(uniq_spec _ (hsrt.sorted _)).2, (hsrt.perm _).mem_iff, List.mem_flatMap]
    have hm : ∀ z : K, 0 ≤ z → ∀ m : ℤ, LineDetect.trunc (z / step + 1 / 2) = m ↔ (m : K) * step - step / 2 ≤ z ∧ z < m * step + step / 2 := by
      intro z h0 m
      rw [trunc_spec _ (by positivity)]
      have e : (z / step + 1 / 2) * step = z + step / 2 := by field_simp
      constructor
      · rintro ⟨h1, h2⟩
        have := mul_le_mul_of_nonneg_right h1 hs.le
        have := mul_lt_mul_of_pos_right h2 hs
        constructor <;> linarith
      · rintro ⟨h1, h2⟩
        constructor
        · exact le_of_mul_le_mul_right (by linarith) hs
        · exact lt_of_mul_lt_mul_right (by linarith) hs.le
    constructor
    · rintro ⟨r, hr, hx⟩
      rw [(C124_over sets n).1 hn, List.map_map, List.mem_map] at hr
      obtain ⟨s, hsm, rfl⟩ := hr
      obtain ⟨k, hk, rfl⟩ := List.mem_map.1 hx
      rw [List.mem_range] at hk
      rw [List.mem_filter] at hsm
      have hh := (half_spec width step hs ((k : ℤ) - LineDetect.trunc (width / step / 2))).1 (by omega)
      push_cast at hh
      obtain ⟨h1, h2⟩ := (hm _ (hz s hsm.1) _).1 rfl
      refine ⟨s, hsm.1, of_decide_eq_true hsm.2, LineDetect.trunc ((s.map (·.z)).sum / (s.length : K) / step + 1 / 2),
        (k : ℤ) - LineDetect.trunc (width / step / 2), h1, h2, ?_, ?_, ?_⟩
      · push_cast; linarith
      · push_cast; linarith
      · simp only [Function.comp]; push_cast; ring
    · rintro ⟨s, hsm, hln, m, k, h1, h2, h3, h4, rfl⟩
      have hh := (half_spec width step hs k).2 ⟨by linarith, by linarith⟩
      have e := (hm _ (hz s hsm) m).2 ⟨h1, h2⟩
      refine ⟨(m : K) * step, ?_, ?_⟩
      · rw [(C124_over sets n).1 hn, List.map_map, List.mem_map]
        refine ⟨s, List.mem_filter.2 ⟨hsm, decide_eq_true hln⟩, ?_⟩
        simp only [Function.comp]
        rw [e]
      · rw [List.mem_map]
        refine ⟨(k + LineDetect.trunc (width / step / 2)).toNat, List.mem_range.2 (by omega), ?_⟩
        have : (((k + LineDetect.trunc (width / step / 2)).toNat : ℤ) : K) = ((k + LineDetect.trunc (width / step / 2) : ℤ) : K) := by
          rw [Int.toNat_of_nonneg (by omega)]
        rw [Int.cast_natCast] at this
        rw [this]
        push_cast
        ring

/-- **C125**: with a width under two steps no redshift is given, though there may be solutions. -/
theorem C125_narrow [FloorRing K] (srt : List K → List K) (hsrt : SortsNum srt) (sets : List (List (Sol K))) (n : ℤ)
    (step width : K) (hs : 0 < step) (hw : width < 2 * step) : extended srt sets n step width = .ok [] := by
  unfold extended
  rw [rounded_ok sets n step hs, Res.bind_ok, if_neg hs.ne']
  have : (LineDetect.trunc (width / step / 2) + LineDetect.trunc (width / step / 2)).toNat = 0 := by
    by_contra hc
    obtain ⟨h1, h2⟩ := (half_spec width step hs 0).1 (by omega)
    push_cast at h2
    linarith
  simp only [this, List.range_zero, List.map_nil]
  have e : srt (List.flatMap (fun _ : K => ([] : List K)) ((averages sets n).map fun z => (LineDetect.trunc (z / step + 1 / 2) : K) * step)) = [] := by
    have := (hsrt.perm (List.flatMap (fun _ : K => ([] : List K)) ((averages sets n).map fun z => (LineDetect.trunc (z / step + 1 / 2) : K) * step)))
    rw [show List.flatMap (fun _ : K => ([] : List K)) ((averages sets n).map fun z => (LineDetect.trunc (z / step + 1 / 2) : K) * step) = [] by simp] at this ⊢
    exact List.perm_nil.1 this
  rw [e]
  rfl

end LineMatch
end Amazed
