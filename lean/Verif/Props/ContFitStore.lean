import Verif.Model.ContFit
import Verif.Props.FitStoreProps
import Verif.Props.EltListProps

set_option linter.unusedSectionVars false
set_option linter.unusedVariables false

/-! # C109: the store of continuum fits of a pass -/

namespace Amazed
namespace ContFit

open FitStore (Sol Store Goes tie given Inv)

variable {K : Type} [Field K] [LinearOrder K] [IsStrictOrderedRing K] {α : Type}

/-! ## Specification -/

/-- The fits of all templates at the redshift `z` of index `i`, in the order of the templates. -/
def column (res : List (String × List (Entry K α))) (i : Nat) (z : K) : List (Sol K (Val K α)) :=
  res.filterMap fun r => (r.2[i]?).map (sol r.1 z)

/-- `row` holds exactly the solutions `l`: smaller merit first, at equal merit greater absolute sigma first, and in the order of `l` at
equal merit and absolute sigma. -/
def Ranked (row l : List (Sol K (Val K α))) : Prop :=
  row.Perm l ∧ row.Pairwise Goes ∧ ∀ m a, row.filter (tie m a) = l.filter (tie m a)

/-- The store of a grid for the results of the templates: at each redshift the fits of all templates, ranked. -/
structure Complete (grid : List K) (res : List (String × List (Entry K α))) (s : Store K (Val K α)) : Prop where
  grid_eq : s.grid = grid
  rows_len : s.rows.length = grid.length
  rows : ∀ (i : Nat) (z : K), grid[i]? = some z → ∃ row, s.rows[i]? = some row ∧ row.length = res.length ∧ Ranked row (column res i z)
  count_eq : grid ≠ [] → s.count = res.length

/-! ## Lemmas -/

theorem addAll_snoc (s s1 s2 : Store K α) (l : List (Sol K α)) (x : Sol K α) (h : FitStore.addAll s l = .ok s1) (h2 : FitStore.add s1 x = .ok s2) :
    FitStore.addAll s (l ++ [x]) = .ok s2 := by
  induction l generalizing s with
  | nil =>
    have e : s1 = s := by
      unfold FitStore.addAll at h
      injection h with h
      exact h.symm
    subst e
    show FitStore.addAll s1 [x] = _
    unfold FitStore.addAll
    rw [h2]; rfl
  | cons y l ih =>
    show FitStore.addAll s (y :: (l ++ [x])) = _
    unfold FitStore.addAll at h ⊢
    cases hy : FitStore.add s y with
    | ok s' => rw [hy] at h; exact ih s' h
    | throw e => rw [hy] at h; exact ih s h
    | ub => rw [hy] at h; cases h

theorem column_length (res : List (String × List (Entry K α))) (i : Nat) (z : K) (h : ∀ r ∈ res, i < r.2.length) :
    (column res i z).length = res.length := by
  unfold column
  induction res with
  | nil => rfl
  | cons r l ih =>
    rw [List.filterMap_cons, List.getElem?_eq_getElem (h r (by simp))]
    simp only [Option.map_some, List.length_cons]
    rw [ih (fun q hq => h q (by simp [hq]))]

theorem column_z {res : List (String × List (Entry K α))} {i : Nat} {z : K} {x : Sol K (Val K α)} (h : x ∈ column res i z) : x.z = z := by
  obtain ⟨r, _, h2⟩ := List.mem_filterMap.1 h
  obtain ⟨e, _, rfl⟩ := Option.map_eq_some_iff.1 h2
  rfl

theorem column_snoc (res : List (String × List (Entry K α))) (r : String × List (Entry K α)) (i : Nat) (z : K) (e : Entry K α) (h : r.2[i]? = some e) :
    column (res ++ [r]) i z = column res i z ++ [sol r.1 z e] := by
  unfold column
  rw [List.filterMap_append]
  simp [h]

/-- The arguments of `Add` for the `n` first redshifts. -/
def calls (grid : List K) (res : List (String × List (Entry K α))) (n : Nat) : List (Sol K (Val K α)) :=
  (List.range n).flatMap fun i => (grid[i]?.map (column res i)).getD []

theorem calls_succ (grid : List K) (res : List (String × List (Entry K α))) (n : Nat) (z : K) (h : grid[n]? = some z) :
    calls grid res (n + 1) = calls grid res n ++ column res n z := by
  unfold calls
  rw [List.range_succ, List.flatMap_append]
  simp [h]

theorem idxOf_nodup {grid : List K} (hn : grid.Nodup) {i : Nat} {z : K} (h : grid[i]? = some z) : grid.idxOf z = i := by
  obtain ⟨hi, rfl⟩ := List.getElem?_eq_some_iff.1 h
  exact hn.idxOf_getElem i hi

theorem given_calls {grid : List K} (hn : grid.Nodup) (res : List (String × List (Entry K α))) (n : Nat) (hl : n ≤ grid.length) (i : Nat) (z : K)
    (h : grid[i]? = some z) : given grid i (calls grid res n) = if i < n then column res i z else [] := by
  induction n with
  | zero => simp [calls, given]
  | succ n ih =>
    have hg := List.getElem?_eq_getElem (show n < grid.length by omega)
    rw [calls_succ grid res n _ hg]
    unfold given at ih ⊢
    rw [List.filter_append, ih (by omega)]
    have hcol : ∀ x ∈ column res n grid[n], grid.idxOf x.z = n := fun x hx => by rw [column_z hx]; exact idxOf_nodup hn hg
    rcases Nat.lt_trichotomy i n with c | rfl | c
    · rw [if_pos c, if_pos (by omega), List.filter_eq_nil_iff.2, List.append_nil]
      intro x hx
      rw [hcol x hx]
      simp; omega
    · rw [if_neg (lt_irrefl _), if_pos (by omega), List.nil_append, List.filter_eq_self.2]
      · rw [hg] at h; cases h; rfl
      · intro x hx; simp [hcol x hx]
    · rw [if_neg (by omega), if_neg (by omega), List.nil_append, List.filter_eq_nil_iff]
      intro x hx
      rw [hcol x hx]
      simp; omega

/-- The greatest of 0 and the signal to noise ratios seen. -/
def SnrMax (m : K) (seen : List (Option K)) : Prop := 0 ≤ m ∧ (∀ v, some v ∈ seen → v ≤ m) ∧ (m = 0 ∨ some m ∈ seen)

theorem snrMax_snoc {m : K} {seen : List (Option K)} (h : SnrMax m seen) (s : Option K) : SnrMax (snrMax m s) (seen ++ [s]) := by
  obtain ⟨h1, h2, h3⟩ := h
  unfold snrMax
  cases s with
  | none =>
    refine ⟨h1, fun v hv => h2 v (by simpa using hv), ?_⟩
    rcases h3 with h3 | h3
    · exact .inl h3
    · exact .inr (by simp [h3])
  | some w =>
    simp only
    split
    case isTrue c =>
      refine ⟨le_trans h1 c.le, ?_, .inr (by simp)⟩
      intro v hv
      rcases List.mem_append.1 hv with hv | hv
      · exact le_trans (h2 v hv) c.le
      · simp at hv; exact hv.le
    case isFalse c =>
      refine ⟨h1, ?_, ?_⟩
      · intro v hv
        rcases List.mem_append.1 hv with hv | hv
        · exact h2 v hv
        · simp at hv; rw [hv]; exact not_lt.1 c
      · rcases h3 with h3 | h3
        · exact .inl h3
        · exact .inr (by simp [h3])

/-- Everything the filling of a store keeps. -/
structure Filled (grid : List K) (l : List (Sol K (Val K α))) (st : K × Store K (Val K α)) : Prop where
  run : FitStore.addAll (FitStore.new grid) l = .ok st.2
  inv : Inv grid l st.2
  snr : SnrMax st.1 (l.map fun x => x.val.snr)

theorem fillOne_ok {grid : List K} {l : List (Sol K (Val K α))} {st : K × Store K (Val K α)} (h : Filled grid l st) {i : Nat} {z : K}
    (hz : z ∈ grid) {r : String × List (Entry K α)} {e : Entry K α} (he : r.2[i]? = some e) :
    ∃ st', fillOne i z r st = .ok st' ∧ Filled grid (l ++ [sol r.1 z e]) st' := by
  obtain ⟨s', g1, g2⟩ := FitStore.inv_add grid l st.2 (sol r.1 z e) hz h.inv
  unfold fillOne
  rw [Res.at_eq_ok.2 he, Res.bind_ok, g1, Res.bind_ok]
  refine ⟨_, rfl, addAll_snoc _ _ _ _ _ h.run g1, g2, ?_⟩
  rw [List.map_append]
  exact snrMax_snoc h.snr e.snr

theorem fill_ok (grid : List K) (res : List (String × List (Entry K α))) (hl : ∀ r ∈ res, r.2.length = grid.length) :
    ∃ st, fill grid res = .ok st ∧ Filled grid (calls grid res grid.length) st := by
  obtain ⟨st, h1, h2⟩ := Res.foldN_inv (f := fillRow grid res) (fun n st => Filled grid (calls grid res n) st) grid.length 0
    (0, FitStore.new grid) ⟨rfl, FitStore.inv_new grid, le_refl _, by simp [calls], .inl rfl⟩ (by
    intro i st _ hi hp
    rw [Nat.zero_add] at hi
    have hg := List.getElem?_eq_getElem hi
    unfold fillRow
    rw [Res.at_eq_ok.2 hg, Res.bind_ok]
    obtain ⟨st', g1, g2⟩ := EltList.foldL_inv (f := fillOne i grid[i]) (fun pre st => Filled grid (calls grid res i ++ column pre i grid[i]) st) res [] st
      (by simpa [column] using hp) (by
        intro pre r s hr hp
        have he := List.getElem?_eq_getElem (show i < r.2.length by rw [hl r hr]; exact hi)
        obtain ⟨s', g1, g2⟩ := fillOne_ok hp (z := grid[i]) (by simp) (r := r) he
        refine ⟨s', g1, ?_⟩
        rw [column_snoc pre r i _ _ he, ← List.append_assoc]
        exact g2)
    exact ⟨st', g1, by rw [calls_succ grid res i _ hg]; simpa using g2⟩)
  rw [Nat.zero_add] at h2
  exact ⟨st, h1, h2⟩

theorem complete_of_filled {grid : List K} (hn : grid.Nodup) {res : List (String × List (Entry K α))} (hl : ∀ r ∈ res, r.2.length = grid.length)
    {st : K × Store K (Val K α)} (h : Filled grid (calls grid res grid.length) st) : Complete grid res st.2 := by
  have hgiven : ∀ (i : Nat) (z : K), grid[i]? = some z → given grid i (calls grid res grid.length) = column res i z := by
    intro i z hz
    rw [given_calls hn res _ (le_refl _) i z hz, if_pos (List.getElem?_eq_some_iff.1 hz).1]
  have hlen : ∀ (i : Nat) (z : K), grid[i]? = some z → (column res i z).length = res.length := fun i z hz =>
    column_length res i z (fun r hr => by rw [hl r hr]; exact (List.getElem?_eq_some_iff.1 hz).1)
  refine ⟨h.inv.grid_eq, h.inv.rows_len, ?_, ?_⟩
  · intro i z hz
    obtain ⟨row, g1, g2, g3, g4⟩ := h.inv.rows i (List.getElem?_eq_some_iff.1 hz).1
    rw [hgiven i z hz] at g2 g4
    exact ⟨row, g1, by rw [g2.length_eq, hlen i z hz], g2, g3, g4⟩
  · intro hne
    have h0 := List.getElem?_eq_getElem (List.length_pos_iff.2 hne)
    have a1 := h.inv.le_count 0 (List.length_pos_iff.2 hne)
    rw [hgiven 0 _ h0, hlen 0 _ h0] at a1
    rcases h.inv.count_le with e | ⟨i, hi, e⟩
    · omega
    · have hi' := List.getElem?_eq_getElem hi
      rw [hgiven i _ hi', hlen i _ hi'] at e
      exact e.symm

/-! ## Theorems -/

/-- **C109, the store of a pass.** For any grid without duplicates and any template results given at all its redshifts: the store holds for each redshift the fits of all templates at this redshift, by
increasing merit, then decreasing absolute amplitude over error, then order of the templates; it announces as many continua as there are templates. The signal to noise ratio kept is the greatest
of all templates and redshifts that are numbers, and 0 if none is positive. -/
theorem C109_store (grid : List K) (res : List (String × List (Entry K α))) (hn : grid.Nodup) (hl : ∀ r ∈ res, r.2.length = grid.length) :
    ∃ m s, fill grid res = .ok (m, s) ∧ Complete grid res s ∧ 0 ≤ m ∧
      (∀ r ∈ res, ∀ e ∈ r.2, ∀ v, e.snr = some v → v ≤ m) ∧ (m = 0 ∨ ∃ r ∈ res, ∃ e ∈ r.2, e.snr = some m) := by
  obtain ⟨st, h1, h2⟩ := fill_ok grid res hl
  obtain ⟨s1, s2, s3⟩ := h2.snr
  refine ⟨st.1, st.2, h1, complete_of_filled hn hl h2, s1, ?_, ?_⟩
  · intro r hr e he v hv
    refine s2 v ?_
    obtain ⟨i, hi, rfl⟩ := List.mem_iff_getElem.1 he
    have hig : i < grid.length := by rw [← hl r hr]; exact hi
    have hg := List.getElem?_eq_getElem hig
    refine List.mem_map.2 ⟨sol r.1 grid[i] r.2[i], ?_, hv⟩
    refine List.mem_flatMap.2 ⟨i, List.mem_range.2 hig, ?_⟩
    rw [hg]
    exact List.mem_filterMap.2 ⟨r, hr, by rw [List.getElem?_eq_getElem hi]; rfl⟩
  · rcases s3 with s3 | s3
    · exact .inl s3
    · obtain ⟨x, hx, hv⟩ := List.mem_map.1 s3
      obtain ⟨i, hi, hx⟩ := List.mem_flatMap.1 hx
      rw [List.getElem?_eq_getElem (List.mem_range.1 hi)] at hx
      obtain ⟨r, hr, hx⟩ := List.mem_filterMap.1 hx
      obtain ⟨e, he, rfl⟩ := Option.map_eq_some_iff.1 hx
      exact .inr ⟨r, hr, e, List.mem_of_getElem? he, hv⟩

/-- **C109, reading the store.** With an increasing grid, every rank below the number of templates can be read at every redshift of the grid, by redshift, and gives the fit of that rank; any rank at or above
raises an error. -/
theorem C109_lookup (grid : List K) (res : List (String × List (Entry K α))) (hs : grid.Pairwise (· < ·)) (hl : ∀ r ∈ res, r.2.length = grid.length)
    (m : K) (s : Store K (Val K α)) (h : fill grid res = .ok (m, s)) (i : Nat) (z : K) (hz : grid[i]? = some z) (k : Nat) :
    (k < res.length → ∃ row v, s.rows[i]? = some row ∧ Ranked row (column res i z) ∧ row[k]? = some v ∧ FitStore.fitValues s z k = .ok v ∧ FitStore.fitValuesAt s i k = .ok v) ∧
    (res.length ≤ k → FitStore.fitValues s z k = .throw .INTERNAL_ERROR ∧ FitStore.fitValuesAt s i k = .throw .INTERNAL_ERROR) := by
  have hn : grid.Nodup := hs.imp fun h => ne_of_lt h
  obtain ⟨st, h1, h2⟩ := fill_ok grid res hl
  rw [h] at h1; cases h1
  have hc := complete_of_filled hn hl h2
  have hcount := hc.count_eq (List.ne_nil_of_mem (List.mem_of_getElem? hz))
  refine ⟨?_, ?_⟩
  · intro hk
    obtain ⟨row, g1, g2, g3⟩ := hc.rows i z hz
    have hv := List.getElem?_eq_getElem (show k < row.length by omega)
    refine ⟨row, row[k], g1, g3, hv, ?_, ?_⟩
    · refine (FitStore.C87_lookup_redshift grid _ s h2.run z k (by omega) (by rw [hcount]; omega)).1 row _ (List.mem_of_getElem? hz) (hs.imp le_of_lt) ?_ ?_
      · rw [idxOf_nodup hn hz]; exact g1
      · exact hv
    · exact ((FitStore.C87_lookup_index_partial grid _ s h2.run i k).2.2 row (by omega) (by omega) g1).1 _ hv
  · intro hk
    exact ⟨FitStore.C87_lookup_rank s z k (.inr (by rw [hcount]; omega)), (FitStore.C87_lookup_index_partial grid _ s h2.run i k).1 (.inr (by rw [hcount]; omega))⟩

/-- Two templates, two redshifts: the second template is best at the second redshift; a NaN ratio is ignored. -/
example : fill ([0, 1] : List ℚ) [("a", [⟨3, 1, 0, 0, some 2, ()⟩, ⟨4, 1, 0, 0, none, ()⟩]), ("b", [⟨5, 1, 0, 0, some 1, ()⟩, ⟨4, -2, 0, 0, some 7, ()⟩])] =
    .ok (7, ⟨[0, 1], [[⟨3, 1, 0, ⟨"a", 0, 0, some 2, ()⟩⟩, ⟨5, 1, 0, ⟨"b", 0, 0, some 1, ()⟩⟩], [⟨4, -2, 1, ⟨"b", 0, 0, some 7, ()⟩⟩, ⟨4, 1, 1, ⟨"a", 0, 0, none, ()⟩⟩]], 2⟩) := by
  decide +kernel

/-- With a redshift twice in the grid the fits of both go to the first one: the second has no fit, and the search of the greatest amplitude over error that follows reads out of bounds. -/
theorem C109_duplicate_counterexample : ∃ s : Store ℚ (Val ℚ Unit), fill ([0, 0] : List ℚ) [("a", [⟨3, 1, 0, 0, some 2, ()⟩, ⟨4, 1, 0, 0, none, ()⟩])] = .ok (2, s) ∧
    s.rows[1]? = some [] ∧ FitStore.findMax s = .ub :=
  ⟨⟨[0, 0], [[⟨3, 1, 0, ⟨"a", 0, 0, some 2, ()⟩⟩, ⟨4, 1, 0, ⟨"a", 0, 0, none, ()⟩⟩], []], 2⟩, by decide +kernel, by decide +kernel, by decide +kernel⟩

end ContFit
end Amazed
