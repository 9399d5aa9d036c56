import Mathlib.Tactic.Linarith
import Verif.Model.FitStore

set_option linter.unusedSectionVars false
set_option linter.unusedVariables false

/-! # C87: precomputed continuum fits -/

namespace Amazed
namespace FitStore

variable {K : Type} [Field K] [LinearOrder K] [IsStrictOrderedRing K] {α : Type}

/-! ## Specification -/

/-- Order of the candidates of one redshift: smaller merit first, at equal merit greater absolute sigma first. -/
def Goes (a b : Sol K α) : Prop := a.merit < b.merit ∨ (a.merit = b.merit ∧ |b.sigma| ≤ |a.sigma|)

/-- The solutions given for the redshift of index `i` of the grid (its first occurrence), in the order of the calls. -/
def given (grid : List K) (i : Nat) (l : List (Sol K α)) : List (Sol K α) := l.filter (fun x => decide (grid.idxOf x.z = i))

/-- Same rank: merit `m`, absolute sigma `a`. -/
def tie (m a : K) (x : Sol K α) : Bool := decide (x.merit = m ∧ |x.sigma| = a)

/-! ## Lemmas -/

theorem idx_eq (g : List K) (z : K) : g.findIdx (fun x => decide (x = z)) = g.idxOf z := by
  unfold List.idxOf
  congr 1

theorem before_iff (x y : Sol K α) : before x.merit |x.sigma| y = true ↔ (x.merit < y.merit ∨ (x.merit = y.merit ∧ |y.sigma| < |x.sigma|)) := by
  unfold before
  by_cases h : x.merit = y.merit
  · simp [h]
  · simp [h]

theorem before_mono (x y w : Sol K α) (h : before x.merit |x.sigma| y = true) (g : Goes y w) : before x.merit |x.sigma| w = true := by
  rw [before_iff] at h ⊢
  rcases h with h | ⟨h1, h2⟩ <;> rcases g with g | ⟨g1, g2⟩
  · exact .inl (h.trans g)
  · exact .inl (g1 ▸ h)
  · exact .inl (h1 ▸ g)
  · exact .inr ⟨h1.trans g1, lt_of_le_of_lt g2 h2⟩

theorem goes_of_not_before (x y : Sol K α) (h : before x.merit |x.sigma| y = false) : Goes y x := by
  have h' : ¬ before x.merit |x.sigma| y = true := by rw [h]; exact Bool.false_ne_true
  rw [before_iff] at h'
  push Not at h'
  rcases lt_or_eq_of_le h'.1 with g | g
  · exact .inl g
  · exact .inr ⟨g, h'.2 g.symm⟩

theorem goes_of_before (x y : Sol K α) (h : before x.merit |x.sigma| y = true) : Goes x y := by
  rw [before_iff] at h
  rcases h with h | ⟨h1, h2⟩
  · exact .inl h
  · exact .inr ⟨h1, le_of_lt h2⟩

theorem not_tie_of_before (x y : Sol K α) (h : before x.merit |x.sigma| y = true) : tie x.merit |x.sigma| y = false := by
  rw [before_iff] at h
  unfold tie
  rw [decide_eq_false_iff_not]
  rintro ⟨h1, h2⟩
  rcases h with h | ⟨h3, h4⟩
  · exact absurd h1 (ne_of_gt h)
  · exact absurd h2 (ne_of_lt h4)

/-- The row after the insertion. -/
def ins (row : List (Sol K α)) (x : Sol K α) : List (Sol K α) := row.take (insertPos row x) ++ x :: row.drop (insertPos row x)

theorem ins_nil (x : Sol K α) : ins [] x = [x] := rfl

theorem ins_cons (y : Sol K α) (l : List (Sol K α)) (x : Sol K α) :
    ins (y :: l) x = if before x.merit |x.sigma| y then x :: y :: l else y :: ins l x := by
  unfold ins insertPos
  rw [List.findIdx_cons]
  cases before x.merit |x.sigma| y <;> simp

theorem ins_perm (row : List (Sol K α)) (x : Sol K α) : (ins row x).Perm (x :: row) := by
  unfold ins
  refine (List.perm_middle).trans ?_
  rw [List.take_append_drop]

theorem ins_length (row : List (Sol K α)) (x : Sol K α) : (ins row x).length = row.length + 1 := by
  rw [(ins_perm row x).length_eq]; rfl

theorem ins_sorted (row : List (Sol K α)) (x : Sol K α) (h : row.Pairwise Goes) : (ins row x).Pairwise Goes := by
  induction row with
  | nil => rw [ins_nil]; exact List.pairwise_singleton _ _
  | cons y l ih =>
    rw [List.pairwise_cons] at h
    rw [ins_cons]
    split
    case isTrue hb =>
      refine List.pairwise_cons.2 ⟨?_, List.pairwise_cons.2 h⟩
      intro w hw
      rcases List.mem_cons.1 hw with rfl | hw
      · exact goes_of_before _ _ hb
      · exact goes_of_before _ _ (before_mono _ _ _ hb (h.1 w hw))
    case isFalse hb =>
      refine List.pairwise_cons.2 ⟨?_, ih h.2⟩
      intro w hw
      rcases List.mem_cons.1 ((ins_perm l x).mem_iff.1 hw) with rfl | hw
      · exact goes_of_not_before _ _ (by simpa using hb)
      · exact h.1 w hw

theorem ins_tie (row : List (Sol K α)) (x : Sol K α) (h : row.Pairwise Goes) (m a : K) :
    (ins row x).filter (tie m a) = row.filter (tie m a) ++ [x].filter (tie m a) := by
  induction row with
  | nil => rw [ins_nil]; simp
  | cons y l ih =>
    rw [List.pairwise_cons] at h
    rw [ins_cons]
    split
    case isTrue hb =>
      by_cases ht : tie m a x = true
      · have ht' : x.merit = m ∧ |x.sigma| = a := of_decide_eq_true ht
        have hn : (y :: l).filter (tie m a) = [] := by
          rw [List.filter_eq_nil_iff]
          intro w hw
          have hbw : before x.merit |x.sigma| w = true := by
            rcases List.mem_cons.1 hw with rfl | hw
            · exact hb
            · exact before_mono _ _ _ hb (h.1 w hw)
          have := not_tie_of_before _ _ hbw
          rw [ht'.1, ht'.2] at this
          rw [this]; exact Bool.false_ne_true
        rw [List.filter_cons_of_pos ht, hn, List.filter_cons_of_pos ht]
        rfl
      · rw [List.filter_cons_of_neg ht, List.filter_cons_of_neg ht, List.filter_nil, List.append_nil]
    case isFalse hb =>
      by_cases ht : tie m a y = true
      · rw [List.filter_cons_of_pos ht, List.filter_cons_of_pos ht, ih h.2, List.cons_append]
      · rw [List.filter_cons_of_neg ht, List.filter_cons_of_neg ht, ih h.2]

theorem index_eq (s : Store K α) (z : K) : redshiftIndex s z = if z ∈ s.grid then (s.grid.idxOf z : Int) else -1 := by
  unfold redshiftIndex
  simp only
  rw [idx_eq]
  by_cases h : z ∈ s.grid
  · rw [if_pos h, if_pos (List.idxOf_lt_length_iff.2 h)]
  · rw [if_neg h, if_neg (fun hc => h (List.idxOf_lt_length_iff.1 hc))]

/-- What every history of calls leaves in the store. -/
structure Inv (grid : List K) (l : List (Sol K α)) (s : Store K α) : Prop where
  grid_eq : s.grid = grid
  rows_len : s.rows.length = grid.length
  rows : ∀ i, i < grid.length → ∃ row, s.rows[i]? = some row ∧ row.Perm (given grid i l) ∧ row.Pairwise Goes ∧
    ∀ m a, row.filter (tie m a) = (given grid i l).filter (tie m a)
  le_count : ∀ i, i < grid.length → (given grid i l).length ≤ s.count
  count_le : s.count = 0 ∨ ∃ i, i < grid.length ∧ (given grid i l).length = s.count

theorem add_throw (s : Store K α) (x : Sol K α) (h : x.z ∉ s.grid) : add s x = .throw .INTERNAL_ERROR := by
  unfold add
  simp only [index_eq, if_neg h]
  rfl

theorem add_ok (s : Store K α) (x : Sol K α) (row : List (Sol K α)) (h : x.z ∈ s.grid) (hr : s.rows[s.grid.idxOf x.z]? = some row) :
    add s x = .ok ⟨s.grid, s.rows.set (s.grid.idxOf x.z) (ins row x), max s.count (row.length + 1)⟩ := by
  unfold add
  simp only [index_eq, if_pos h]
  rw [if_neg (by omega)]
  have : Res.atZ s.rows ((s.grid.idxOf x.z : Nat) : Int) = .ok row := by
    unfold Res.atZ
    rw [if_neg (by omega), Int.toNat_natCast]
    exact Res.at_eq_ok.2 hr
  rw [this, Res.bind_ok]
  have e : (row.take (insertPos row x) ++ x :: row.drop (insertPos row x)) = ins row x := rfl
  simp only [e, ins_length, Int.toNat_natCast]
  congr 2
  split <;> omega

theorem given_append (grid : List K) (i : Nat) (l : List (Sol K α)) (x : Sol K α) :
    given grid i (l ++ [x]) = given grid i l ++ if grid.idxOf x.z = i then [x] else [] := by
  unfold given
  rw [List.filter_append]
  congr 1
  by_cases h : grid.idxOf x.z = i
  · rw [if_pos h, List.filter_cons_of_pos (by simpa using h)]; rfl
  · rw [if_neg h, List.filter_cons_of_neg (by simpa using h)]; rfl

theorem inv_new (grid : List K) : Inv grid [] (new grid : Store K α) := by
  refine ⟨rfl, List.length_replicate, ?_, ?_, .inl rfl⟩
  · intro i hi
    refine ⟨[], ?_, ?_, List.Pairwise.nil, ?_⟩
    · show (List.replicate grid.length ([] : List (Sol K α)))[i]? = some []
      rw [List.getElem?_replicate, if_pos hi]
    · exact List.Perm.refl _
    · intro m a; rfl
  · intro i hi; exact Nat.zero_le _

theorem inv_unknown (grid : List K) (l : List (Sol K α)) (s : Store K α) (x : Sol K α) (h : x.z ∉ grid) (hi : Inv grid l s) :
    Inv grid (l ++ [x]) s := by
  have hg : ∀ i, i < grid.length → given grid i (l ++ [x]) = given grid i l := by
    intro i hil
    rw [given_append, if_neg, List.append_nil]
    intro hc
    exact h (List.idxOf_lt_length_iff.1 (hc ▸ hil))
  refine ⟨hi.grid_eq, hi.rows_len, ?_, ?_, ?_⟩
  · intro i hil; rw [hg i hil]; exact hi.rows i hil
  · intro i hil; rw [hg i hil]; exact hi.le_count i hil
  · rcases hi.count_le with h0 | ⟨i, h1, h2⟩
    · exact .inl h0
    · exact .inr ⟨i, h1, by rw [hg i h1]; exact h2⟩

theorem inv_add (grid : List K) (l : List (Sol K α)) (s : Store K α) (x : Sol K α) (h : x.z ∈ grid) (hi : Inv grid l s) :
    ∃ s', add s x = .ok s' ∧ Inv grid (l ++ [x]) s' := by
  have hk := List.idxOf_lt_length_iff.2 h
  obtain ⟨row, h1, h2, h3, h4⟩ := hi.rows _ hk
  have hl : row.length = (given grid (grid.idxOf x.z) l).length := h2.length_eq
  have h1' : s.rows[s.grid.idxOf x.z]? = some row := by rw [hi.grid_eq]; exact h1
  refine ⟨_, add_ok s x row (by rw [hi.grid_eq]; exact h) h1', ?_⟩
  rw [hi.grid_eq]
  refine ⟨rfl, ?_, ?_, ?_, ?_⟩
  · show (s.rows.set _ _).length = _
    rw [List.length_set]; exact hi.rows_len
  · intro i hil
    show ∃ r, (s.rows.set _ _)[i]? = some r ∧ _
    by_cases e : grid.idxOf x.z = i
    · subst e
      rw [given_append, if_pos rfl]
      refine ⟨ins row x, ?_, ?_, ins_sorted row x h3, ?_⟩
      · rw [List.getElem?_set_self (by rw [hi.rows_len]; exact hk)]
      · refine (ins_perm row x).trans ?_
        refine (List.Perm.cons x h2).trans ?_
        exact (List.perm_append_singleton x _).symm
      · intro m a
        rw [ins_tie row x h3, List.filter_append, h4]
    · rw [given_append, if_neg e, List.append_nil]
      obtain ⟨r, g⟩ := hi.rows i hil
      exact ⟨r, by rw [List.getElem?_set_ne e]; exact g.1, g.2⟩
  · intro i hil
    show _ ≤ max s.count (row.length + 1)
    have := hi.le_count i hil
    rw [given_append]
    by_cases e : grid.idxOf x.z = i
    · subst e
      rw [if_pos rfl, List.length_append, List.length_singleton]
      omega
    · rw [if_neg e, List.append_nil]; omega
  · show max s.count (row.length + 1) = 0 ∨ ∃ i, i < grid.length ∧ _ = max s.count (row.length + 1)
    right
    by_cases hc : s.count < row.length + 1
    · refine ⟨_, hk, ?_⟩
      rw [given_append, if_pos rfl, List.length_append, List.length_singleton]; omega
    · rcases hi.count_le with h0 | ⟨i, g1, g2⟩
      · omega
      · refine ⟨i, g1, ?_⟩
        have : grid.idxOf x.z ≠ i := by
          intro e
          subst e
          omega
        rw [given_append, if_neg this, List.append_nil]; omega

theorem addAll_inv (grid : List K) (l2 : List (Sol K α)) : ∀ (l : List (Sol K α)) (s : Store K α), Inv grid l s →
    ∃ s', addAll s l2 = .ok s' ∧ Inv grid (l ++ l2) s' := by
  induction l2 with
  | nil => intro l s h; exact ⟨s, rfl, by rw [List.append_nil]; exact h⟩
  | cons x l2 ih =>
    intro l s h
    by_cases hx : x.z ∈ grid
    · obtain ⟨s', g1, g2⟩ := inv_add grid l s x hx h
      obtain ⟨s'', g3, g4⟩ := ih _ _ g2
      refine ⟨s'', ?_, by simpa using g4⟩
      unfold addAll
      rw [g1]; exact g3
    · obtain ⟨s'', g3, g4⟩ := ih _ _ (inv_unknown grid l s x hx h)
      refine ⟨s'', ?_, by simpa using g4⟩
      unfold addAll
      rw [add_throw s x (by rw [h.grid_eq]; exact hx)]
      exact g3

/-! ## Theorems -/

/-- **C87, content.** After any sequence of insertions (those with a redshift outside the grid raise and change nothing) the store holds, for each redshift of the grid, exactly the solutions given
for it, by increasing merit, at equal merit by decreasing absolute sigma, and solutions with the same merit and absolute sigma stay in the order of their insertion. The number of candidates it
announces is the greatest number of solutions given for one redshift. -/
theorem C87_content (grid : List K) (l : List (Sol K α)) :
    ∃ s, addAll (new grid) l = .ok s ∧ s.grid = grid ∧ s.rows.length = grid.length ∧
      (∀ i, i < grid.length → ∃ row, s.rows[i]? = some row ∧ row.Perm (given grid i l) ∧ row.Pairwise Goes ∧
        ∀ m a, row.filter (tie m a) = (given grid i l).filter (tie m a)) ∧
      (∀ i, i < grid.length → (given grid i l).length ≤ s.count) ∧ (s.count = 0 ∨ ∃ i, i < grid.length ∧ (given grid i l).length = s.count) := by
  obtain ⟨s, h1, h2⟩ := addAll_inv grid l [] (new grid) (inv_new grid)
  rw [List.nil_append] at h2
  exact ⟨s, h1, h2.grid_eq, h2.rows_len, h2.rows, h2.le_count, h2.count_le⟩

/-- **C87, unknown redshift.** Adding a solution at a redshift outside the grid raises an error. -/
theorem C87_unknown (grid : List K) (l : List (Sol K α)) (s : Store K α) (h : addAll (new grid) l = .ok s) (x : Sol K α) :
    (x.z ∉ grid → add s x = .throw .INTERNAL_ERROR) ∧ (x.z ∈ grid → ∃ s', add s x = .ok s') := by
  obtain ⟨s', h1, h2⟩ := addAll_inv grid l [] (new grid) (inv_new grid)
  rw [h] at h1; cases h1
  refine ⟨fun hx => add_throw s x (by rw [h2.grid_eq]; exact hx), fun hx => ?_⟩
  obtain ⟨s', g1, _⟩ := inv_add grid _ s x hx h2
  exact ⟨s', g1⟩

/-- **C87, precondition of the search.** In every reachable store the rows are partitioned by the comparison given to the binary search, for any solution to insert. -/
theorem C87_upper_bound_precondition (grid : List K) (l : List (Sol K α)) (s : Store K α) (h : addAll (new grid) l = .ok s) (row : List (Sol K α)) (hr : row ∈ s.rows)
    (x : Sol K α) (i j : Nat) (a b : Sol K α) (hij : i < j) (ha : row[i]? = some a) (hb : row[j]? = some b) (hbf : before x.merit |x.sigma| a = true) :
    before x.merit |x.sigma| b = true := by
  obtain ⟨s', h1, h2⟩ := addAll_inv grid l [] (new grid) (inv_new grid)
  rw [h] at h1; cases h1
  obtain ⟨k, hk, rfl⟩ := List.mem_iff_getElem.1 hr
  obtain ⟨r, g1, _, g3, _⟩ := h2.rows k (by rw [← h2.rows_len]; exact hk)
  rw [List.getElem?_eq_getElem hk] at g1
  cases g1
  obtain ⟨ia, rfl⟩ := List.getElem?_eq_some_iff.1 ha
  obtain ⟨jb, rfl⟩ := List.getElem?_eq_some_iff.1 hb
  exact before_mono _ _ _ hbf (List.pairwise_iff_getElem.1 g3 i j ia jb hij)

theorem atZ_of {β : Type} {l : List β} {i : Int} {a : β} (h0 : 0 ≤ i) (h : l[i.toNat]? = some a) : Res.atZ l i = .ok a := by
  unfold Res.atZ
  rw [if_neg (by omega)]
  exact Res.at_eq_ok.2 h

theorem atZ_ub {β : Type} {l : List β} {i : Int} (h0 : 0 ≤ i) (h : (l.length : Int) ≤ i) : Res.atZ l i = .ub := by
  unfold Res.atZ
  rw [if_neg (by omega)]
  exact Res.at_eq_ub.2 (by omega)

/-- **C87, lookup by index.** For any index and rank: an error is raised when the rank is negative or at least the announced number of candidates, or when the index is outside the grid. Else the
answer is the candidate of that rank of that redshift if the redshift has that many, and the read is out of bounds (undefined) if it has fewer candidates than another redshift. -/
theorem C87_lookup_index_partial (grid : List K) (l : List (Sol K α)) (s : Store K α) (h : addAll (new grid) l = .ok s) (i rank : Int) :
    (rank < 0 ∨ (s.count : Int) ≤ rank → fitValuesAt s i rank = .throw .INTERNAL_ERROR) ∧
    (0 ≤ rank → rank < s.count → (i < 0 ∨ (grid.length : Int) ≤ i) → fitValuesAt s i rank = .throw .INTERNAL_ERROR) ∧
    (∀ row, 0 ≤ rank → 0 ≤ i → s.rows[i.toNat]? = some row →
      (∀ v, row[rank.toNat]? = some v → fitValuesAt s i rank = .ok v) ∧ (rank < s.count → (row.length : Int) ≤ rank → fitValuesAt s i rank = .ub)) := by
  obtain ⟨s', h1, h2⟩ := addAll_inv grid l [] (new grid) (inv_new grid)
  rw [h] at h1; cases h1
  refine ⟨?_, ?_, ?_⟩
  · intro hr
    unfold fitValuesAt
    rcases hr with hr | hr
    · rw [if_neg (by omega), if_pos hr]
    · rw [if_pos (by omega)]
  · intro h0 hc hi
    have hne : grid ≠ [] := by
      rintro rfl
      rcases h2.count_le with e | ⟨k, hk, _⟩
      · omega
      · exact absurd hk (Nat.not_lt_zero _)
    unfold fitValuesAt
    rw [if_neg (by omega), if_neg (by omega), if_pos]
    rw [h2.grid_eq]
    rcases hi with hi | hi
    · exact .inl hi
    · exact .inr ⟨hne, by omega⟩
  · intro row h0 hi hrow
    have hil : i.toNat < grid.length := by rw [← h2.rows_len]; exact (List.getElem?_eq_some_iff.1 hrow).1
    obtain ⟨r, g1, g2, _⟩ := h2.rows _ hil
    rw [hrow] at g1; cases g1
    have hle := h2.le_count _ hil
    rw [List.nil_append] at g2 hle
    rw [← g2.length_eq] at hle
    have key : rank < s.count → fitValuesAt s i rank = Res.atZ row rank := by
      intro hc
      unfold fitValuesAt
      rw [if_neg (by omega), if_neg (by omega), if_neg, atZ_of hi hrow, Res.bind_ok]
      rw [h2.grid_eq]
      push Not
      exact ⟨hi, fun _ => by omega⟩
    refine ⟨?_, ?_⟩
    · intro v hv
      have := (List.getElem?_eq_some_iff.1 hv).1
      rw [key (by omega)]
      exact atZ_of h0 hv
    · intro hc hlen
      rw [key hc]
      exact atZ_ub h0 hlen

theorem loop_lt (g : List K) (h : g.length < 10) : Res.foldN (fun k (_ : Unit) => Res.at_ g k >>= fun _ => .ok ()) 0 10 () = .ub := by
  have : ∀ n k, k ≤ g.length → g.length < k + n → Res.foldN (fun k (_ : Unit) => Res.at_ g k >>= fun _ => .ok ()) k n () = .ub := by
    intro n
    induction n with
    | zero => intro k h1 h2; omega
    | succ n ih =>
      intro k h1 h2
      unfold Res.foldN
      by_cases e : k < g.length
      · simp only [Res.at_of_lt e, Res.bind_ok]
        exact ih (k + 1) (by omega) (by omega)
      · rw [Res.at_eq_ub.2 (by omega)]; rfl
  exact this 10 0 (Nat.zero_le _) (by omega)

theorem loop_ge (g : List K) (h : 10 ≤ g.length) : Res.foldN (fun k (_ : Unit) => Res.at_ g k >>= fun _ => .ok ()) 0 10 () = .ok () := by
  obtain ⟨s, h1, _⟩ := Res.foldN_inv (f := fun k (_ : Unit) => Res.at_ g k >>= fun _ => .ok ()) (fun _ _ => True) 10 0 () trivial
    (fun i s _ hi _ => ⟨(), by rw [Res.at_of_lt (by omega : i < g.length)]; rfl, trivial⟩)
  exact h1

/-- **C87, rank.** Looking up a redshift with a negative rank, or a rank at least the announced number of candidates, raises an error. -/
theorem C87_lookup_rank (s : Store K α) (z : K) (rank : Int) (h : rank < 0 ∨ (s.count : Int) ≤ rank) :
    fitValues s z rank = .throw .INTERNAL_ERROR := by
  unfold fitValues
  rcases h with h | h
  · by_cases h2 : (s.count : Int) - 1 < rank
    · rw [if_pos h2]
    · rw [if_neg h2, if_pos h]
  · rw [if_pos (by omega)]

/-- **C87, lookup by redshift.** With an increasing grid and a valid rank: a redshift of the grid gives the candidate of that rank when it has one; a redshift out of the range of the grid raises an
error; a redshift between two redshifts of the grid raises an error when the grid has at least ten redshifts. With fewer redshifts the code reads out of bounds (undefined) before raising. -/
theorem C87_lookup_redshift (grid : List K) (l : List (Sol K α)) (s : Store K α) (h : addAll (new grid) l = .ok s) (z : K) (rank : Int) (hr : 0 ≤ rank) (hc : rank < s.count) :
    (∀ row v, z ∈ grid → grid.Pairwise (· ≤ ·) → s.rows[grid.idxOf z]? = some row → row[rank.toNat]? = some v → fitValues s z rank = .ok v) ∧
    (∀ lo hi, grid.head? = some lo → grid.getLast? = some hi → (z < lo ∨ hi < z) → fitValues s z rank = .throw .INTERNAL_ERROR) ∧
    (∀ lo hi, grid.head? = some lo → grid.getLast? = some hi → lo ≤ z → z ≤ hi → z ∉ grid →
      fitValues s z rank = if grid.length < 10 then .ub else .throw .INTERNAL_ERROR) := by
  obtain ⟨s', h1, h2⟩ := addAll_inv grid l [] (new grid) (inv_new grid)
  rw [h] at h1; cases h1
  have start : ∀ lo hi, grid.head? = some lo → grid.getLast? = some hi → fitValues s z rank =
      if z < lo ∨ hi < z then .throw .INTERNAL_ERROR
      else if redshiftIndex s z < 0 then
        Res.foldN (fun k (_ : Unit) => Res.at_ s.grid k >>= fun _ => .ok ()) 0 10 () >>= fun _ => .throw .INTERNAL_ERROR
      else Res.atZ s.rows (redshiftIndex s z) >>= fun row => Res.atZ row rank := by
    intro lo hi e1 e2
    unfold fitValues
    rw [if_neg (by omega), if_neg (by omega), h2.grid_eq]
    rw [List.head?_eq_getElem?] at e1
    rw [List.getLast?_eq_getElem?] at e2
    rw [Res.at_eq_ok.2 e1, Res.bind_ok, Res.at_eq_ok.2 e2, Res.bind_ok]
  refine ⟨?_, ?_, ?_⟩
  · intro row v hz hs hrow hv
    have hne : grid ≠ [] := List.ne_nil_of_mem hz
    have ei : redshiftIndex s z = ((grid.idxOf z : Nat) : Int) := by rw [index_eq, if_pos (by rw [h2.grid_eq]; exact hz), h2.grid_eq]
    rw [start _ _ (List.head?_eq_some_head hne) (List.getLast?_eq_some_getLast hne), if_neg, ei, if_neg (by omega)]
    · rw [atZ_of (i := ((grid.idxOf z : Nat) : Int)) (by omega) hrow, Res.bind_ok]
      exact atZ_of hr hv
    · push Not
      obtain ⟨k, hk, rfl⟩ := List.mem_iff_getElem.1 hz
      have mono : ∀ i j (hi : i < grid.length) (hj : j < grid.length), i ≤ j → grid[i] ≤ grid[j] := by
        intro i j hi hj hij
        rcases Nat.lt_or_eq_of_le hij with e | e
        · exact List.pairwise_iff_getElem.1 hs i j hi hj e
        · subst e; exact le_refl _
      refine ⟨?_, ?_⟩
      · rw [List.head_eq_getElem]
        exact mono _ _ _ _ (Nat.zero_le _)
      · rw [List.getLast_eq_getElem]
        exact mono _ _ _ _ (by omega)
  · intro lo hi e1 e2 hz
    rw [start lo hi e1 e2, if_pos hz]
  · intro lo hi e1 e2 hz1 hz2 hz
    have ei : redshiftIndex s z = -1 := by rw [index_eq, if_neg (by rw [h2.grid_eq]; exact hz)]
    rw [start lo hi e1 e2, if_neg (by push Not; exact ⟨hz1, hz2⟩), ei, if_pos (by omega), h2.grid_eq]
    by_cases hl : grid.length < 10
    · rw [loop_lt grid hl, if_pos hl]; rfl
    · rw [loop_ge grid (by omega), if_neg hl]; rfl

/-- **C87, greatest sigma.** When every redshift of the grid has a candidate, the search finds the first candidates' greatest sigma, at the first redshift that reaches it; with an empty grid it
answers minus infinity (`none`). -/
theorem C87_max (s : Store K α) (first : Nat → Sol K α) (hr : s.rows.length = s.grid.length) (hf : ∀ i, i < s.grid.length → ∃ row, s.rows[i]? = some row ∧ row[0]? = some (first i)) :
    (s.grid = [] → findMax s = .ok none) ∧
    (s.grid ≠ [] → ∃ k z, s.grid[k]? = some z ∧ findMax s = .ok (some (z, first k)) ∧ (∀ i, i < s.grid.length → (first i).sigma ≤ (first k).sigma) ∧
      ∀ i, i < k → (first i).sigma < (first k).sigma) := by
  obtain ⟨b, h1, h2⟩ := Res.foldN_inv (f := maxStep s) (fun n b => (n = 0 ∧ b = none) ∨ (∃ (k : Nat) (z : K), k < n ∧ s.grid[k]? = some z ∧ b = some (z, first k) ∧
      (∀ i, i < n → (first i).sigma ≤ (first k).sigma) ∧ ∀ i, i < k → (first i).sigma < (first k).sigma)) s.grid.length 0 none (.inl ⟨rfl, rfl⟩) (by
    intro i b _ hi hp
    rw [Nat.zero_add] at hi
    obtain ⟨row, g1, g2⟩ := hf i hi
    unfold maxStep
    rw [Res.at_eq_ok.2 g1, Res.bind_ok, Res.at_eq_ok.2 g2, Res.bind_ok, Res.at_of_lt hi, Res.bind_ok]
    refine ⟨_, rfl, ?_⟩
    right
    rcases hp with ⟨rfl, rfl⟩ | ⟨k, z, k1, k2, rfl, k4, k5⟩
    · refine ⟨0, s.grid[0], Nat.lt_succ_self _, List.getElem?_eq_getElem hi, by simp, ?_, ?_⟩
      · intro j hj
        rw [show j = 0 by omega]
      · intro j hj; omega
    · by_cases e : (first k).sigma < (first i).sigma
      · refine ⟨i, s.grid[i], Nat.lt_succ_self _, List.getElem?_eq_getElem hi, by simp [e], ?_, ?_⟩
        · intro j hj
          rcases Nat.lt_succ_iff_lt_or_eq.1 hj with hj | rfl
          · exact le_of_lt (lt_of_le_of_lt (k4 j hj) e)
          · exact le_refl _
        · intro j hj
          exact lt_of_le_of_lt (k4 j hj) e
      · refine ⟨k, z, by omega, k2, by simp [e], ?_, k5⟩
        intro j hj
        rcases Nat.lt_succ_iff_lt_or_eq.1 hj with hj | rfl
        · exact k4 j hj
        · exact not_lt.1 e)
  rw [Nat.zero_add] at h2
  have h1' : findMax s = .ok b := h1
  refine ⟨?_, ?_⟩
  · intro hg
    rcases h2 with ⟨_, rfl⟩ | ⟨k, z, k1, _⟩
    · exact h1'
    · rw [hg] at k1; exact absurd k1 (Nat.not_lt_zero _)
  · intro hg
    rcases h2 with ⟨e, _⟩ | ⟨k, z, k1, k2, rfl, k4, k5⟩
    · exact absurd (List.eq_nil_of_length_eq_zero e) hg
    · exact ⟨k, z, k2, h1', k4, k5⟩

/-- Two redshifts, three solutions given for the first, in the order of the merits and sigmas; one at an unknown redshift. -/
example : addAll (new [0, 1]) [⟨5, 1, 0, 'a'⟩, ⟨3, 1, 0, 'b'⟩, ⟨5, -2, 0, 'c'⟩, ⟨9, 1, 7, 'd'⟩, ⟨2, 8, 1, 'e'⟩, ⟨5, 1, 0, 'f'⟩] =
    .ok (⟨[0, 1], [[⟨3, 1, 0, 'b'⟩, ⟨5, -2, 0, 'c'⟩, ⟨5, 1, 0, 'a'⟩, ⟨5, 1, 0, 'f'⟩], [⟨2, 8, 1, 'e'⟩]], 4⟩ : Store ℚ Char) := by decide +kernel

/-- In that store the second candidate of the second redshift is read out of bounds although two candidates are announced. -/
theorem C87_uneven_counterexample : ∃ (s : Store ℚ Char) (l : List (Sol ℚ Char)), addAll (new [0, 1]) l = .ok s ∧ (1 : Int) < s.count ∧ fitValuesAt s 1 1 = .ub :=
  ⟨⟨[0, 1], [[⟨3, 1, 0, 'b'⟩, ⟨5, 1, 0, 'a'⟩], [⟨2, 8, 1, 'e'⟩]], 2⟩, [⟨5, 1, 0, 'a'⟩, ⟨3, 1, 0, 'b'⟩, ⟨2, 8, 1, 'e'⟩], by decide +kernel, by decide, by decide +kernel⟩

/-- A redshift between the two of the grid: undefined instead of the error. -/
theorem C87_small_grid_counterexample : ∃ (s : Store ℚ Char) (l : List (Sol ℚ Char)), addAll (new [0, 1]) l = .ok s ∧ fitValues s (1 / 2) 0 = .ub :=
  ⟨⟨[0, 1], [[⟨5, 1, 0, 'a'⟩], []], 1⟩, [⟨5, 1, 0, 'a'⟩], by decide +kernel, by decide +kernel⟩

example : findMax (⟨[0, 1, 2], [[⟨5, 1, 0, 'a'⟩], [⟨5, 4, 1, 'b'⟩, ⟨6, 9, 1, 'c'⟩], [⟨7, 4, 2, 'd'⟩]], 2⟩ : Store ℚ Char) = .ok (some (1, ⟨5, 4, 1, 'b'⟩)) := by decide +kernel

end FitStore
end Amazed
