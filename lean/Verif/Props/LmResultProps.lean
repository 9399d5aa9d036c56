import Verif.Model.LmResult
import Verif.Props.ZGridProps
import Verif.Props.IndexingProps

set_option linter.unusedVariables false
set_option linter.unusedSectionVars false

/-! # C97, C98: the results of the line model stay aligned with the redshift grid when the grid is refined -/

namespace Amazed
namespace LmResult

variable {Z V S C : Type}

/-- A relation between the columns of two results, with the default value of the column: the columns with one value per
redshift, and the rows of the tables. The priors of the catalogs do not depend on the redshift and are unchanged. -/
structure AllCols (k : Flt V S C) (P : ∀ {β : Type}, β → List β → List β → Prop) (r r' : LmRes Z V S C) : Prop where
  chi2 : P k.nan r.chi2 r'.chi2
  scaleMarg : P k.nan r.scaleMarg r'.scaleMarg
  lmSol : P k.sol0 r.lmSol r'.lmSol
  contSol : P k.cont0 r.contSol r'.contSol
  chi2Cont : P k.nan r.chi2Cont r'.chi2Cont
  scaleMargCont : P k.nan r.scaleMargCont r'.scaleMargCont
  tplCont : List.Forall₂ (P k.dmax) r.tplCont r'.tplCont
  ratChi2 : List.Forall₂ (P k.dmax) r.ratChi2 r'.ratChi2
  ratScale : List.Forall₂ (P k.zero) r.ratScale r'.ratScale
  ratStrong : List.Forall₂ (P false) r.ratStrong r'.ratStrong
  ratHa : List.Forall₂ (P false) r.ratHa r'.ratHa
  ratN : List.Forall₂ (P 0) r.ratN r'.ratN
  ratPriorLines : List.Forall₂ (P k.zero) r.ratPriorLines r'.ratPriorLines
  ratPrior : r'.ratPrior = r.ratPrior

/-- The vectors of a result are aligned with a grid of `n` redshifts: every column has `n` values, and the tables of the ratio
catalogs have the same number of rows. -/
structure Aligned (n : Nat) (r : LmRes Z V S C) : Prop where
  chi2 : r.chi2.length = n
  scaleMarg : r.scaleMarg.length = n
  lmSol : r.lmSol.length = n
  contSol : r.contSol.length = n
  chi2Cont : r.chi2Cont.length = n
  scaleMargCont : r.scaleMargCont.length = n
  tplCont : ∀ t ∈ r.tplCont, t.length = n
  ratChi2 : ∀ t ∈ r.ratChi2, t.length = n
  ratScale : r.ratScale.length = r.ratChi2.length ∧ ∀ t ∈ r.ratScale, t.length = n
  ratStrong : r.ratStrong.length = r.ratChi2.length ∧ ∀ t ∈ r.ratStrong, t.length = n
  ratHa : r.ratHa.length = r.ratChi2.length ∧ ∀ t ∈ r.ratHa, t.length = n
  ratN : r.ratN.length = r.ratChi2.length ∧ ∀ t ∈ r.ratN, t.length = n
  ratPriorLines : r.ratPriorLines.length = r.ratChi2.length ∧ ∀ t ∈ r.ratPriorLines, t.length = n

/-- `count` default values instead of the `ndup` values at `pos`. -/
def splice {β : Type} (pos ndup count : Nat) (d : β) (l : List β) : List β :=
  l.take pos ++ List.replicate count d ++ l.drop (pos + ndup)

theorem insertValue_ok {β : Type} {pos ndup count : Nat} (d : β) (l : List β) (h : pos + ndup ≤ l.length)
    (hc : ndup ≤ count) : insertValueWithDuplicates l pos count d ndup = .ok (splice pos ndup count d l) := by
  unfold insertValueWithDuplicates splice
  exact (C09_insertWithDuplicates l (List.replicate count d) pos ndup).1 (by simpa using hc) (by omega)

theorem splice_length {β : Type} {pos ndup count : Nat} (d : β) (l : List β) (h : pos + ndup ≤ l.length)
    (hc : ndup ≤ count) : (splice pos ndup count d l).length = l.length + count - ndup := by
  simp [splice]; omega

theorem updTable_ok {β : Type} {pos ndup count n : Nat} (d : β) (t : List (List β)) (ht : ∀ x ∈ t, x.length = n)
    (h : pos + ndup ≤ n) (hc : ndup ≤ count) :
    updTable pos count d ndup t = .ok (t.map (splice pos ndup count d)) := by
  induction t with
  | nil => rfl
  | cons x t ih =>
    unfold updTable
    rw [insertValue_ok d x (by rw [ht x (by simp)]; exact h) hc, Res.bind_ok,
      ih (fun y hy => ht y (by simp [hy])), Res.bind_ok]
    rfl

/-- The first `i` rows of a table updated. -/
def firstRows {β : Type} (pos ndup count : Nat) (d : β) (i : Nat) (t : List (List β)) : List (List β) :=
  (t.take i).map (splice pos ndup count d) ++ t.drop i

theorem updRow_ok {β : Type} {pos ndup count n i : Nat} (d : β) (t : List (List β)) (ht : ∀ x ∈ t, x.length = n)
    (h : pos + ndup ≤ n) (hc : ndup ≤ count) (hi : i < t.length) :
    updRow (firstRows pos ndup count d i t) i pos count d ndup = .ok (firstRows pos ndup count d (i + 1) t) := by
  unfold updRow
  have hl : i < (firstRows pos ndup count d i t).length := by simp [firstRows]; omega
  have hget : (firstRows pos ndup count d i t)[i]? = some t[i] := by
    unfold firstRows
    rw [List.getElem?_append_right (by simp)]
    simp only [List.length_map, List.length_take]
    rw [show i - min i t.length = 0 by omega, List.getElem?_drop]
    simp [hi]
  have h1 : Res.at_ (firstRows pos ndup count d i t) i = .ok t[i] := by
    rw [Res.at_eq_ok]; exact hget
  rw [h1, Res.bind_ok, insertValue_ok d t[i] (by rw [ht _ (List.getElem_mem _)]; exact h) hc, Res.bind_ok]
  congr 1
  unfold firstRows
  rw [List.set_append_right _ _ (by simp)]
  simp only [List.length_map, List.length_take]
  rw [show i - min i t.length = 0 by omega, List.drop_eq_getElem_cons hi, List.set_cons_zero, List.take_succ_eq_append_getElem hi]
  rw [List.map_append, List.append_assoc]
  rfl

theorem firstRows_all {β : Type} {pos ndup count i : Nat} (d : β) (t : List (List β)) (h : i = t.length) :
    firstRows pos ndup count d i t = t.map (splice pos ndup count d) := by
  subst h; simp [firstRows]

theorem firstRows_zero {β : Type} {pos ndup count : Nat} (d : β) (t : List (List β)) :
    firstRows pos ndup count d 0 t = t := by
  simp [firstRows]

/-- The result with every column spliced. -/
def spliceAll (k : Flt V S C) (pos ndup count : Nat) (r : LmRes Z V S C) : LmRes Z V S C :=
  { r with
    chi2 := splice pos ndup count k.nan r.chi2, scaleMarg := splice pos ndup count k.nan r.scaleMarg
    lmSol := splice pos ndup count k.sol0 r.lmSol, contSol := splice pos ndup count k.cont0 r.contSol
    chi2Cont := splice pos ndup count k.nan r.chi2Cont, scaleMargCont := splice pos ndup count k.nan r.scaleMargCont
    tplCont := r.tplCont.map (splice pos ndup count k.dmax)
    ratChi2 := r.ratChi2.map (splice pos ndup count k.dmax)
    ratScale := r.ratScale.map (splice pos ndup count k.zero)
    ratStrong := r.ratStrong.map (splice pos ndup count false)
    ratHa := r.ratHa.map (splice pos ndup count false)
    ratN := r.ratN.map (splice pos ndup count 0)
    ratPriorLines := r.ratPriorLines.map (splice pos ndup count k.zero) }

theorem updateVectors_ok (k : Flt V S C) {r : LmRes Z V S C} {n pos ndup count : Nat} (ha : Aligned n r)
    (h : pos + ndup ≤ n) (hc : ndup ≤ count) :
    updateVectors k r pos ndup count = .ok (spliceAll k pos ndup count r) := by
  unfold updateVectors
  rw [insertValue_ok _ _ (by rw [ha.chi2]; exact h) hc, Res.bind_ok,
    insertValue_ok _ _ (by rw [ha.scaleMarg]; exact h) hc, Res.bind_ok,
    insertValue_ok _ _ (by rw [ha.lmSol]; exact h) hc, Res.bind_ok,
    insertValue_ok _ _ (by rw [ha.contSol]; exact h) hc, Res.bind_ok,
    insertValue_ok _ _ (by rw [ha.chi2Cont]; exact h) hc, Res.bind_ok,
    insertValue_ok _ _ (by rw [ha.scaleMargCont]; exact h) hc, Res.bind_ok,
    updTable_ok _ _ ha.tplCont h hc, Res.bind_ok]
  obtain ⟨s', h1, h2⟩ := Res.foldN_inv (f := updRatio k pos ndup count)
    (P := fun (i : Nat) (s : LmRes Z V S C) => s = { spliceAll k pos ndup count r with
      ratChi2 := firstRows pos ndup count k.dmax i r.ratChi2
      ratScale := firstRows pos ndup count k.zero i r.ratScale
      ratStrong := firstRows pos ndup count false i r.ratStrong
      ratHa := firstRows pos ndup count false i r.ratHa
      ratN := firstRows pos ndup count 0 i r.ratN
      ratPriorLines := firstRows pos ndup count k.zero i r.ratPriorLines }) r.ratChi2.length 0
    { r with
      chi2 := splice pos ndup count k.nan r.chi2, scaleMarg := splice pos ndup count k.nan r.scaleMarg
      lmSol := splice pos ndup count k.sol0 r.lmSol, contSol := splice pos ndup count k.cont0 r.contSol
      chi2Cont := splice pos ndup count k.nan r.chi2Cont, scaleMargCont := splice pos ndup count k.nan r.scaleMargCont
      tplCont := r.tplCont.map (splice pos ndup count k.dmax) }
    (by simp [spliceAll, firstRows_zero])
    (by
      rintro i s - hi rfl
      have hi' : i < r.ratChi2.length := by omega
      refine ⟨_, ?_, rfl⟩
      unfold updRatio
      simp only
      rw [updRow_ok _ _ ha.ratChi2 h hc hi', Res.bind_ok,
        updRow_ok _ _ ha.ratScale.2 h hc (by rw [ha.ratScale.1]; exact hi'), Res.bind_ok,
        updRow_ok _ _ ha.ratStrong.2 h hc (by rw [ha.ratStrong.1]; exact hi'), Res.bind_ok,
        updRow_ok _ _ ha.ratHa.2 h hc (by rw [ha.ratHa.1]; exact hi'), Res.bind_ok,
        updRow_ok _ _ ha.ratN.2 h hc (by rw [ha.ratN.1]; exact hi'), Res.bind_ok,
        updRow_ok _ _ ha.ratPriorLines.2 h hc (by rw [ha.ratPriorLines.1]; exact hi'), Res.bind_ok])
  rw [h1, h2]
  simp only [Nat.zero_add]
  rw [firstRows_all _ _ rfl, firstRows_all _ _ ha.ratScale.1.symm, firstRows_all _ _ ha.ratStrong.1.symm,
    firstRows_all _ _ ha.ratHa.1.symm, firstRows_all _ _ ha.ratN.1.symm, firstRows_all _ _ ha.ratPriorLines.1.symm]
  rfl

theorem spliceAll_aligned (k : Flt V S C) {r : LmRes Z V S C} {n pos ndup count : Nat} (ha : Aligned n r)
    (h : pos + ndup ≤ n) (hc : ndup ≤ count) : Aligned (n + count - ndup) (spliceAll k pos ndup count r) := by
  have hrow : ∀ {β : Type} (d : β) (t : List (List β)), (∀ x ∈ t, x.length = n) →
      ∀ x ∈ t.map (splice pos ndup count d), x.length = n + count - ndup := by
    intro β d t ht x hx
    obtain ⟨y, hy, rfl⟩ := List.mem_map.1 hx
    rw [splice_length d y (by rw [ht y hy]; exact h) hc, ht y hy]
  have hcol : ∀ {β : Type} (d : β) (l : List β), l.length = n → (splice pos ndup count d l).length = n + count - ndup := by
    intro β d l hl
    rw [splice_length d l (by omega) hc, hl]
  exact ⟨hcol _ _ ha.chi2, hcol _ _ ha.scaleMarg, hcol _ _ ha.lmSol, hcol _ _ ha.contSol, hcol _ _ ha.chi2Cont,
    hcol _ _ ha.scaleMargCont, hrow _ _ ha.tplCont, hrow _ _ ha.ratChi2, ⟨by simp [spliceAll, ha.ratScale.1], hrow _ _ ha.ratScale.2⟩,
    ⟨by simp [spliceAll, ha.ratStrong.1], hrow _ _ ha.ratStrong.2⟩, ⟨by simp [spliceAll, ha.ratHa.1], hrow _ _ ha.ratHa.2⟩,
    ⟨by simp [spliceAll, ha.ratN.1], hrow _ _ ha.ratN.2⟩, ⟨by simp [spliceAll, ha.ratPriorLines.1], hrow _ _ ha.ratPriorLines.2⟩⟩

/-- Relations that hold for every spliced column hold for the spliced result. -/
theorem spliceAll_cols (k : Flt V S C) {r : LmRes Z V S C} {n pos ndup count : Nat} (ha : Aligned n r)
    (P : ∀ {β : Type}, β → List β → List β → Prop)
    (hP : ∀ {β : Type} (d : β) (l : List β), l.length = n → P d l (splice pos ndup count d l)) :
    AllCols k P r (spliceAll k pos ndup count r) := by
  have hrow : ∀ {β : Type} (d : β) (t : List (List β)), (∀ x ∈ t, x.length = n) →
      List.Forall₂ (P d) t (t.map (splice pos ndup count d)) := by
    intro β d t ht
    induction t with
    | nil => exact .nil
    | cons x t ih => exact .cons (hP d x (ht x (by simp))) (ih (fun y hy => ht y (by simp [hy])))
  exact ⟨hP _ _ ha.chi2, hP _ _ ha.scaleMarg, hP _ _ ha.lmSol, hP _ _ ha.contSol, hP _ _ ha.chi2Cont,
    hP _ _ ha.scaleMargCont, hrow _ _ ha.tplCont, hrow _ _ ha.ratChi2, hrow _ _ ha.ratScale.2, hrow _ _ ha.ratStrong.2,
    hrow _ _ ha.ratHa.2, hrow _ _ ha.ratN.2, hrow _ _ ha.ratPriorLines.2, rfl⟩

theorem forall₂_trans {β : Type} {P Q R : List β → List β → Prop} (h : ∀ a b c, P a b → Q b c → R a c) {x y z : List (List β)}
    (h1 : List.Forall₂ P x y) (h2 : List.Forall₂ Q y z) : List.Forall₂ R x z := by
  induction h1 generalizing z with
  | nil => cases h2; exact .nil
  | cons ha _ ih =>
    cases h2 with
    | cons hb hr => exact .cons (h _ _ _ ha hb) (ih hr)

theorem AllCols.trans {k : Flt V S C} {P Q R : ∀ {β : Type}, β → List β → List β → Prop}
    (h : ∀ {β : Type} (d : β) (a b c : List β), P d a b → Q d b c → R d a c) {x y z : LmRes Z V S C}
    (h1 : AllCols k P x y) (h2 : AllCols k Q y z) : AllCols k R x z :=
  ⟨h _ _ _ _ h1.chi2 h2.chi2, h _ _ _ _ h1.scaleMarg h2.scaleMarg, h _ _ _ _ h1.lmSol h2.lmSol,
    h _ _ _ _ h1.contSol h2.contSol, h _ _ _ _ h1.chi2Cont h2.chi2Cont, h _ _ _ _ h1.scaleMargCont h2.scaleMargCont,
    forall₂_trans (h _) h1.tplCont h2.tplCont, forall₂_trans (h _) h1.ratChi2 h2.ratChi2,
    forall₂_trans (h _) h1.ratScale h2.ratScale, forall₂_trans (h _) h1.ratStrong h2.ratStrong,
    forall₂_trans (h _) h1.ratHa h2.ratHa, forall₂_trans (h _) h1.ratN h2.ratN,
    forall₂_trans (h _) h1.ratPriorLines h2.ratPriorLines, h2.ratPrior.trans h1.ratPrior⟩

section grid
variable {K : Type} [AddCommGroup K] [LinearOrder K] [IsOrderedAddMonoid K]

/-- `z` is in the span of the window `s`: between its first and last point, up to `eps`. -/
def InSpan (eps z : K) (s : List K) : Prop := (∃ x ∈ s, x - eps ≤ z) ∧ ∃ y ∈ s, z ≤ y + eps

/-- What a refinement by the windows `wins` does to a column: one value per redshift of the new grid; the redshifts in a window
have the default value, every other redshift comes from the old grid with its value. -/
def Kept (eps : K) (wins : List (List K)) (grid grid' : List K) {β : Type} (d : β) (col col' : List β) : Prop :=
  col'.length = grid'.length ∧
  ∀ (i : Nat) (z : K), grid'[i]? = some z →
    ((∃ s ∈ wins, InSpan eps z s) → col'[i]? = some d) ∧
    ((¬ ∃ s ∈ wins, InSpan eps z s) → ∃ j : Nat, grid[j]? = some z ∧ col'[i]? = col[j]?)

theorem insertSubgrid_patched {eps : K} {sub zgrid z : List K} {imin ndup : Nat}
    (h : insertSubgrid eps sub zgrid = .ok (z, imin, ndup)) :
    insertWithDuplicates zgrid imin (patched eps sub zgrid) ndup = .ok z := by
  unfold insertSubgrid at h
  unfold patched
  split at h
  rotate_left
  · simp at h
  split at h
  rotate_left
  · simp at h
  rename_i sf sb hsf hsb _ _ zf zb hzf hzb
  rw [hsf, hsb, hzf, hzb]
  simp only at h ⊢
  split at h
  rotate_left
  · simp at h
  · simp at h
  rename_i i j hij
  split at h
  rotate_left
  · simp at h
  · simp at h
  rename_i z' hz'
  simp only [Res.ok.injEq, Prod.mk.injEq] at h
  obtain ⟨rfl, rfl, rfl⟩ := h
  exact hz'

theorem patched_length (eps : K) (sub zgrid : List K) : (patched eps sub zgrid).length = sub.length := by
  unfold patched
  split
  · unfold patchEnds; simp only; split <;> split <;> simp
  · rfl

/-- One insertion, in terms of the window left by the call: the grid, and what is in the span. -/
theorem insert_one {eps : K} {sub zgrid z : List K} {imin ndup : Nat} (heps : 0 ≤ eps) (hf : SubgridFits sub zgrid)
    (h : insertSubgrid eps sub zgrid = .ok (z, imin, ndup)) :
    z = zgrid.take imin ++ patched eps sub zgrid ++ zgrid.drop (imin + ndup) ∧ imin + ndup ≤ zgrid.length ∧
    ndup ≤ sub.length ∧ 1 ≤ ndup ∧
    (∀ x ∈ patched eps sub zgrid, InSpan eps x sub) ∧
    (∀ k (hk : k < zgrid.length), k < imin → ∀ y ∈ sub, zgrid[k] < y - eps) ∧
    (∀ k (hk : k < zgrid.length), imin + ndup ≤ k → ∀ y ∈ sub, y + eps < zgrid[k]) ∧
    (∀ k (hk : k < zgrid.length), (∀ y ∈ sub, zgrid[k] < y - eps) → k < imin) ∧
    (∀ k (hk : k < zgrid.length), (∀ y ∈ sub, y + eps < zgrid[k]) → imin + ndup ≤ k) := by
  have hne : sub ≠ [] := by rintro rfl; simp [insertSubgrid] at h
  have hzne : zgrid ≠ [] := List.ne_nil_of_length_pos (by have := hf.zlen; omega)
  have hz2 := hf.zlen
  obtain ⟨sub', hz, hl, hin, hn1, hn2, hval, hsort, hlo, hhi, hh, ht, hiff⟩ :=
    insertSubgrid_ok heps hf.zsorted hf.ssorted h hne hzne hf.zlen
      (fun x hx => hf.lo x hx _ (List.head?_eq_some_head hzne))
      (fun x hx => hf.hi x hx _ (List.getLast?_eq_some_getLast hzne))
  have hp := insertSubgrid_patched h
  rw [(C09_insertWithDuplicates zgrid (patched eps sub zgrid) imin ndup).1 (by rw [patched_length]; exact hn2) hin] at hp
  have hp' := Res.ok.inj hp
  have hpl := patched_length eps sub zgrid
  have hsub : sub' = patched eps sub zgrid := by
    have h2 := hp'.trans hz
    have h3 := List.append_cancel_right h2
    exact (List.append_cancel_left h3).symm
  subst hsub
  have hle : ∀ x ∈ sub, sub.head hne ≤ x := by
    intro x hx
    obtain ⟨i, hi, rfl⟩ := List.getElem_of_mem hx
    rw [List.head_eq_getElem]
    rcases Nat.eq_zero_or_pos i with rfl | h0
    · exact le_rfl
    · exact (getElem_lt_of_lt hf.ssorted h0 hi).le
  have hge : ∀ x ∈ sub, x ≤ sub.getLast hne := by
    intro x hx
    obtain ⟨i, hi, rfl⟩ := List.getElem_of_mem hx
    rw [List.getLast_eq_getElem]
    rcases Nat.eq_or_lt_of_le (show i ≤ sub.length - 1 by omega) with h0 | h0
    · exact le_of_eq (by congr 1)
    · exact (getElem_lt_of_lt hf.ssorted h0 (by omega)).le
  have hgz : ∀ i (hi : i < zgrid.length), zgrid.head hzne ≤ zgrid[i] := by
    intro i hi
    rw [List.head_eq_getElem]
    rcases Nat.eq_zero_or_pos i with rfl | h0
    · exact le_rfl
    · exact (getElem_lt_of_lt hf.zsorted h0 hi).le
  have hgl : ∀ i (hi : i < zgrid.length), zgrid[i] ≤ zgrid.getLast hzne := by
    intro i hi
    rw [List.getLast_eq_getElem]
    rcases Nat.eq_or_lt_of_le (show i ≤ zgrid.length - 1 by omega) with h0 | h0
    · exact le_of_eq (by congr 1)
    · exact (getElem_lt_of_lt hf.zsorted h0 (by omega)).le
  have hmid1 : sub.head hne - eps ≤ zgrid[imin] := by
    by_contra hc
    have := (hiff imin (by omega)).1.1 (not_le.1 hc)
    omega
  have hmid2 : zgrid[imin] ≤ sub.getLast hne + eps := by
    by_contra hc
    have := (hiff imin (by omega)).2.1 (not_le.1 hc)
    omega
  refine ⟨hz, hin, hn2, hn1, ?_, ?_, ?_, ?_, ?_⟩
  · intro x hx
    obtain ⟨i, hi, rfl⟩ := List.getElem_of_mem hx
    rcases hval i (by omega) hi with hv | ⟨h0, hv, hle'⟩ | ⟨h0, hv, hle'⟩
    · rw [hv]
      exact ⟨⟨sub[i]'(by omega), List.getElem_mem _, by simpa using heps⟩, ⟨sub[i]'(by omega), List.getElem_mem _, by simpa using heps⟩⟩
    · rw [hv]
      exact ⟨⟨_, List.head_mem hne, hle'⟩, ⟨_, List.getLast_mem hne, (hgz imin (by omega)).trans hmid2⟩⟩
    · rw [hv]
      exact ⟨⟨_, List.head_mem hne, hmid1.trans (hgl imin (by omega))⟩, ⟨_, List.getLast_mem hne, hle'⟩⟩
  · intro k hk hlt y hy
    exact ((hiff k hk).1.2 hlt).trans_le (sub_le_sub_right (hle y hy) eps)
  · intro k hk hlt y hy
    exact (add_le_add_left (hge y hy) eps).trans_lt ((hiff k hk).2.2 hlt)
  · intro k hk hall
    exact (hiff k hk).1.1 (hall _ (List.head_mem hne))
  · intro k hk hall
    exact (hiff k hk).2.1 (hall _ (List.getLast_mem hne))

theorem splice_kept {eps : K} {sub zgrid z : List K} {imin ndup : Nat} (heps : 0 ≤ eps) (hf : SubgridFits sub zgrid)
    (h : insertSubgrid eps sub zgrid = .ok (z, imin, ndup)) {β : Type} (d : β) (l : List β)
    (hl : l.length = zgrid.length) :
    Kept eps [sub] zgrid z d l (splice imin ndup (patched eps sub zgrid).length d l) := by
  obtain ⟨hz, hin, hn2, hn1, hspan, hlo, hhi, _, _⟩ := insert_one heps hf h
  have hpl := patched_length eps sub zgrid
  refine ⟨?_, ?_⟩
  · rw [splice_length d l (by omega) (by omega), hz]
    simp; omega
  · intro i x hx
    rw [hz] at hx
    simp only [List.mem_singleton, exists_eq_left]
    unfold splice
    by_cases h1 : i < imin
    · rw [List.append_assoc, List.getElem?_append_left (by simp; omega), List.getElem?_take, if_pos h1] at hx
      rw [List.append_assoc, List.getElem?_append_left (by simp; omega), List.getElem?_take, if_pos h1]
      rw [List.getElem?_eq_getElem (by omega)] at hx
      obtain rfl := Option.some.inj hx
      refine ⟨fun hs => ?_, fun _ => ⟨i, List.getElem?_eq_getElem (by omega), rfl⟩⟩
      obtain ⟨⟨y, hy, hy'⟩, _⟩ := hs
      exact absurd hy' (not_le.2 (hlo i (by omega) h1 y hy))
    · by_cases h2 : i < imin + (patched eps sub zgrid).length
      · rw [List.append_assoc, List.getElem?_append_right (by simp; omega), List.getElem?_append_left (by simp; omega)] at hx
        rw [List.append_assoc, List.getElem?_append_right (by simp; omega), List.getElem?_append_left (by simp; omega),
          List.getElem?_replicate, if_pos (by simp; omega)]
        refine ⟨fun _ => rfl, fun hs => absurd (hspan x (List.mem_of_getElem? hx)) hs⟩
      · rw [List.getElem?_append_right (by simp; omega), List.getElem?_drop] at hx
        rw [List.getElem?_append_right (by simp; omega), List.getElem?_drop]
        simp only [List.length_append, List.length_take, List.length_replicate] at hx ⊢
        rw [Nat.min_eq_left (by omega)] at hx ⊢
        obtain ⟨hlt, hv⟩ := List.getElem?_eq_some_iff.1 hx
        refine ⟨fun hs => ?_, fun _ => ⟨_, hx, rfl⟩⟩
        obtain ⟨_, ⟨y, hy, hy'⟩⟩ := hs
        have := hhi _ hlt (by omega) y hy
        rw [hv] at this
        exact absurd hy' (not_le.2 this)

theorem Kept.trans {eps : K} {w1 w2 : List (List K)} {g1 g2 g3 : List K} {β : Type} {d : β} {a b c : List β}
    (h1 : Kept eps w1 g1 g2 d a b) (h2 : Kept eps w2 g2 g3 d b c) : Kept eps (w1 ++ w2) g1 g3 d a c := by
  refine ⟨h2.1, fun i z hz => ?_⟩
  obtain ⟨hd, hk⟩ := h2.2 i z hz
  by_cases hs2 : ∃ s ∈ w2, InSpan eps z s
  · refine ⟨fun _ => hd hs2, fun hn => absurd ?_ hn⟩
    obtain ⟨s, hs, hs'⟩ := hs2
    exact ⟨s, by simp [hs], hs'⟩
  · obtain ⟨j, hj, hcj⟩ := hk hs2
    obtain ⟨hd1, hk1⟩ := h1.2 j z hj
    refine ⟨fun ⟨s, hs, hs'⟩ => ?_, fun hn => ?_⟩
    · rcases List.mem_append.1 hs with hs | hs
      · rw [hcj]; exact hd1 ⟨s, hs, hs'⟩
      · exact absurd ⟨s, hs, hs'⟩ hs2
    · obtain ⟨m, hm, hm'⟩ := hk1 (fun ⟨s, hs, hs'⟩ => hn ⟨s, by simp [hs], hs'⟩)
      exact ⟨m, hm, hcj.trans hm'⟩

theorem fits_after {eps : K} {sub t zgrid z : List K} {imin ndup : Nat} (heps : 0 ≤ eps) (hf : SubgridFits sub zgrid)
    (h : insertSubgrid eps sub zgrid = .ok (z, imin, ndup)) (ht : SubgridFits t zgrid) : SubgridFits t z := by
  obtain ⟨a, b, c, d, _⟩ := C09_insertSubgrid eps sub zgrid z imin ndup heps hf h
  obtain ⟨_, hin, hn2, _⟩ := insert_one heps hf h
  have := hf.zlen
  exact ⟨a, by omega, ht.ssorted, fun x hx w hw => ht.lo x hx w (b ▸ hw), fun x hx w hw => ht.hi x hx w (c ▸ hw)⟩

theorem refl_kept {eps : K} {g : List K} {β : Type} (d : β) (l : List β) (hl : l.length = g.length) :
    Kept eps [] g g d l l :=
  ⟨hl, fun i z hz => ⟨fun ⟨s, hs, _⟩ => absurd hs (by simp), fun _ => ⟨i, hz, rfl⟩⟩⟩

theorem refineLoop_spec (k : Flt V S C) (eps : K) (heps : 0 ≤ eps) (wins : List (List K)) :
    ∀ (grid : List K) (r : LmRes K V S C) (y : List K × List (List K) × LmRes K V S C),
      (∀ s ∈ wins, SubgridFits s grid) → Aligned grid.length r → refineLoop k eps wins grid r = .ok y →
      insertSubgrids eps grid wins = .ok y.1 ∧ Aligned y.1.length y.2.2 ∧
      AllCols k (fun {β} d a b => Kept eps wins grid y.1 (β := β) d a b) r y.2.2 := by
  induction wins with
  | nil =>
    intro grid r y _ ha h
    simp only [refineLoop, Res.ok.injEq] at h
    subst h
    refine ⟨rfl, ha, ?_⟩
    have hrow : ∀ {β : Type} (d : β) (t : List (List β)), (∀ x ∈ t, x.length = grid.length) →
        List.Forall₂ (Kept eps [] grid grid d) t t := by
      intro β d t ht
      induction t with
      | nil => exact .nil
      | cons x t ih => exact .cons (refl_kept d x (ht x (by simp))) (ih (fun y hy => ht y (by simp [hy])))
    exact ⟨refl_kept _ _ ha.chi2, refl_kept _ _ ha.scaleMarg, refl_kept _ _ ha.lmSol, refl_kept _ _ ha.contSol,
      refl_kept _ _ ha.chi2Cont, refl_kept _ _ ha.scaleMargCont, hrow _ _ ha.tplCont, hrow _ _ ha.ratChi2,
      hrow _ _ ha.ratScale.2, hrow _ _ ha.ratStrong.2, hrow _ _ ha.ratHa.2, hrow _ _ ha.ratN.2,
      hrow _ _ ha.ratPriorLines.2, rfl⟩
  | cons s ss ih =>
    intro grid r y hf ha h
    unfold refineLoop at h
    rw [Res.bind_eq_ok] at h
    obtain ⟨⟨z, imin, ndup⟩, hx, h⟩ := h
    have hfs := hf s (by simp)
    obtain ⟨hz, hin, hn2, hn1, _⟩ := insert_one heps hfs hx
    have hpl := patched_length eps s grid
    simp only at h
    rw [updateVectors_ok k ha hin (by omega), Res.bind_ok, Res.bind_eq_ok] at h
    obtain ⟨w, hw, h⟩ := h
    simp only [Res.ok.injEq] at h
    subst h
    have hzl : z.length = grid.length + (patched eps s grid).length - ndup := by
      rw [hz]; simp; omega
    have hal := spliceAll_aligned k ha hin (count := (patched eps s grid).length) (by omega)
    rw [← hzl] at hal
    obtain ⟨h1, h2, h3⟩ := ih z _ w (fun t ht => fits_after heps hfs hx (hf t (by simp [ht]))) hal hw
    refine ⟨?_, h2, ?_⟩
    · unfold insertSubgrids; rw [hx]; exact h1
    · refine AllCols.trans (P := fun {β} d a b => Kept eps [s] grid z (β := β) d a b)
        (Q := fun {β} d a b => Kept eps ss z w.1 (β := β) d a b) ?_ ?_ h3
      · intro β d a b c hab hbc
        exact hab.trans hbc
      · exact spliceAll_cols k ha _ (fun d l hl => splice_kept heps hfs hx d l hl)

/-- C97. Refining the grid around any number of candidates keeps every result aligned with the grid: every vector has one value
per redshift of the refined grid; the redshifts inside a window hold the default value (to be recomputed), every other
redshift belongs to the old grid and keeps its results. -/
theorem C97_refine (k : Flt V S C) (eps : K) (heps : 0 ≤ eps) (wins : List (List K)) (grid grid' : List K)
    (wins' : List (List K)) (r r' : LmRes K V S C) (hf : ∀ s ∈ wins, SubgridFits s grid) (ha : Aligned grid.length r)
    (h : refine k eps wins grid r = .ok (grid', wins', r')) :
    r'.redshifts = grid' ∧ Aligned grid'.length r' ∧
    AllCols k (fun {β} d a b => Kept eps wins grid grid' (β := β) d a b) r r' := by
  unfold refine at h
  rw [Res.bind_eq_ok] at h
  obtain ⟨y, hy, h⟩ := h
  simp only [Res.ok.injEq, Prod.mk.injEq] at h
  obtain ⟨rfl, rfl, rfl⟩ := h
  obtain ⟨_, h2, h3⟩ := refineLoop_spec k eps heps wins grid r y hf ha hy
  exact ⟨rfl, ⟨h2.1, h2.2, h2.3, h2.4, h2.5, h2.6, h2.7, h2.8, h2.9, h2.10, h2.11, h2.12, h2.13⟩,
    ⟨h3.1, h3.2, h3.3, h3.4, h3.5, h3.6, h3.7, h3.8, h3.9, h3.10, h3.11, h3.12, h3.13, h3.14⟩⟩

theorem getIndex_mem (l : List K) (z : K) (h : z ∈ l) : ∃ i, getIndex l z = .ok i := by
  unfold getIndex
  simp only
  rw [if_neg]
  · exact ⟨_, rfl⟩
  · exact Nat.ne_of_lt (List.findIdx_lt_length_of_exists ⟨z, h, by simp⟩)

/-- Two windows do not meet: one ends before the other begins, with a margin of `eps` on each side. -/
def Apart (eps : K) (s t : List K) : Prop :=
  (∀ x ∈ s, ∀ y ∈ t, x + eps < y - eps) ∨ ∀ x ∈ s, ∀ y ∈ t, y + eps < x - eps

/-- A block of the grid which is out of the span of an inserted window is still a block of the new grid. -/
theorem infix_insert {eps : K} {sub zgrid z b : List K} {imin ndup : Nat} (heps : 0 ≤ eps) (hf : SubgridFits sub zgrid)
    (h : insertSubgrid eps sub zgrid = .ok (z, imin, ndup)) (hb : b <:+: zgrid) (hbn : b ≠ [])
    (hout : (∀ x ∈ b, ∀ y ∈ sub, x < y - eps) ∨ ∀ x ∈ b, ∀ y ∈ sub, y + eps < x) : b <:+: z := by
  obtain ⟨hz, hin, hn2, hn1, hspan, hlo, hhi, hlo', hhi'⟩ := insert_one heps hf h
  obtain ⟨p, q, rfl⟩ := hb
  have hbl : 0 < b.length := List.length_pos_iff.2 hbn
  rcases hout with ho | ho
  · have hlast := hlo' (p.length + (b.length - 1)) (by simp; omega) (by
      intro y hy
      have : (p ++ b ++ q)[p.length + (b.length - 1)]'(by simp; omega) = b[b.length - 1] := by
        rw [List.getElem_append_left (by simp; omega), List.getElem_append_right (by omega)]
        congr 1; omega
      rw [this]
      exact ho _ (List.getElem_mem _) y hy)
    rw [hz, List.take_append, List.take_of_length_le (by simp; omega)]
    refine ⟨p, List.take (imin - (p ++ b).length) q ++ patched eps sub (p ++ b ++ q) ++ List.drop (imin + ndup) (p ++ b ++ q), ?_⟩
    simp
  · have hfirst := hhi' p.length (by simp; omega) (by
      intro y hy
      have : (p ++ b ++ q)[p.length]'(by simp; omega) = b[0] := by
        rw [List.getElem_append_left (by simp; omega), List.getElem_append_right (by omega)]
        congr 1; omega
      rw [this]
      exact ho _ (List.getElem_mem _) y hy)
    rw [hz]
    refine ⟨List.take imin (p ++ b ++ q) ++ patched eps sub (p ++ b ++ q) ++ List.drop (imin + ndup) p, q, ?_⟩
    have : List.drop (imin + ndup) (p ++ b ++ q) = List.drop (imin + ndup) p ++ b ++ q := by
      rw [List.append_assoc p b q, List.drop_append_of_le_length hfirst, List.append_assoc]
    rw [this]
    simp

theorem refineLoop_infix (k : Flt V S C) (eps : K) (heps : 0 ≤ eps) (wins : List (List K)) :
    ∀ (grid : List K) (r : LmRes K V S C) (y : List K × List (List K) × LmRes K V S C),
      (∀ s ∈ wins, SubgridFits s grid) → Aligned grid.length r → refineLoop k eps wins grid r = .ok y →
      wins.Pairwise (Apart eps) →
      (List.Forall₂ (fun s s' => s'.length = s.length ∧ s' <:+: y.1 ∧ ∀ x ∈ s', InSpan eps x s) wins y.2.1) ∧
      ∀ b : List K, b <:+: grid → b ≠ [] →
        (∀ s ∈ wins, (∀ x ∈ b, ∀ y ∈ s, x < y - eps) ∨ ∀ x ∈ b, ∀ y ∈ s, y + eps < x) → b <:+: y.1 := by
  induction wins with
  | nil =>
    intro grid r y _ _ h _
    simp only [refineLoop, Res.ok.injEq] at h
    subst h
    exact ⟨.nil, fun b hb _ _ => hb⟩
  | cons s ss ih =>
    intro grid r y hf ha h hpw
    unfold refineLoop at h
    rw [Res.bind_eq_ok] at h
    obtain ⟨⟨z, imin, ndup⟩, hx, h⟩ := h
    have hfs := hf s (by simp)
    obtain ⟨hz, hin, hn2, hn1, hspan, _⟩ := insert_one heps hfs hx
    have hpl := patched_length eps s grid
    have hsne : s ≠ [] := by rintro rfl; simp [insertSubgrid] at hx
    simp only at h
    rw [updateVectors_ok k ha hin (by omega), Res.bind_ok, Res.bind_eq_ok] at h
    obtain ⟨w, hw, h⟩ := h
    simp only [Res.ok.injEq] at h
    subst h
    have hzl : z.length = grid.length + (patched eps s grid).length - ndup := by
      rw [hz]; simp; omega
    have hal := spliceAll_aligned k ha hin (count := (patched eps s grid).length) (by omega)
    rw [← hzl] at hal
    obtain ⟨hpw1, hpw2⟩ := List.pairwise_cons.1 hpw
    obtain ⟨h1, h2⟩ := ih z _ w (fun t ht => fits_after heps hfs hx (hf t (by simp [ht]))) hal hw hpw2
    refine ⟨.cons ⟨hpl, ?_, hspan⟩ h1, ?_⟩
    · refine h2 _ (by rw [hz]; exact ⟨_, _, rfl⟩)
        (by rw [← List.length_pos_iff, hpl]; exact List.length_pos_iff.2 hsne) ?_
      intro t ht
      rcases hpw1 t ht with hap | hap
      · left
        intro x hx' y hy
        obtain ⟨_, u, hu, hu'⟩ := hspan x hx'
        exact hu'.trans_lt (hap u hu y hy)
      · right
        intro x hx' y hy
        obtain ⟨⟨u, hu, hu'⟩, _⟩ := hspan x hx'
        exact (hap u hu y hy).trans_le hu'
    · intro b hb hbn hout
      exact h2 b (infix_insert heps hfs hx hb hbn (hout s (by simp))) hbn (fun t ht => hout t (by simp [ht]))

/-- C98 (part). When the windows of the candidates do not meet, every refined redshift of every candidate is found in the refined
grid, at an index holding the default (not yet computed) value, and the redshifts of one candidate are consecutive in the grid.
Missing: windows that meet, for which it is false (`C98_overlap_counterexample`). -/
theorem C98_windows_found_partial (k : Flt V S C) (eps : K) (heps : 0 ≤ eps) (wins : List (List K)) (grid grid' : List K)
    (wins' : List (List K)) (r r' : LmRes K V S C) (hf : ∀ s ∈ wins, SubgridFits s grid) (ha : Aligned grid.length r)
    (hap : wins.Pairwise (Apart eps)) (h : refine k eps wins grid r = .ok (grid', wins', r')) :
    wins'.length = wins.length ∧
    (∀ (c : Nat) (s' : List K), wins'[c]? = some s' → s' <:+: grid' ∧
      ∀ z ∈ s', ∃ i : Nat, getIndex r'.redshifts z = .ok i ∧ grid'[i]? = some z ∧ r'.chi2[i]? = some k.nan) := by
  obtain ⟨h1, h2, h3⟩ := C97_refine k eps heps wins grid grid' wins' r r' hf ha h
  unfold refine at h
  rw [Res.bind_eq_ok] at h
  obtain ⟨y, hy, h⟩ := h
  simp only [Res.ok.injEq, Prod.mk.injEq] at h
  obtain ⟨rfl, rfl, rfl⟩ := h
  obtain ⟨h4, _⟩ := refineLoop_infix k eps heps wins grid r y hf ha hy hap
  refine ⟨h4.length_eq.symm, ?_⟩
  intro c s' hc
  obtain ⟨hcl, hcv⟩ := List.getElem?_eq_some_iff.1 hc
  have h5 := (List.forall₂_iff_get.1 h4).2 c (by rw [h4.length_eq]; exact hcl) hcl
  simp only [List.get_eq_getElem] at h5
  rw [hcv] at h5
  refine ⟨h5.2.1, fun z hz => ?_⟩
  have hmem : z ∈ y.1 := h5.2.1.subset hz
  obtain ⟨g1, g2, g3⟩ := C08_getIndex y.1 z
  have hok := getIndex_mem y.1 z hmem
  obtain ⟨i, hi⟩ := hok
  obtain ⟨hlt, hv, _⟩ := g1 i hi
  have hgi : y.1[i]? = some z := List.getElem?_eq_some_iff.2 ⟨hlt, hv⟩
  refine ⟨i, hi, hgi, ?_⟩
  exact (h3.chi2.2 i z hgi).1 ⟨_, List.getElem_mem (by rw [h4.length_eq]; exact hcl), h5.2.2 z hz⟩

/-- The window `s` is at least as dense as the grid: the grid has a redshift in the span of `s`, and has at most as many
redshifts in the span as the window. -/
structure Dense (eps : K) (s grid : List K) : Prop where
  some_in : ∃ z ∈ grid, InSpan eps z s
  count : ∀ (i j : Nat) (zi zj : K), i ≤ j → grid[i]? = some zi → grid[j]? = some zj → InSpan eps zi s → InSpan eps zj s →
    j - i + 1 ≤ s.length

theorem insertSubgrid_total {eps : K} {s grid : List K} (heps : 0 ≤ eps) (hf : SubgridFits s grid) (hd : Dense eps s grid) :
    ∃ z imin ndup, insertSubgrid eps s grid = .ok (z, imin, ndup) := by
  obtain ⟨x, hx, ⟨⟨a, ha, ha'⟩, ⟨b, hb, hb'⟩⟩⟩ := hd.some_in
  have hsn : 0 < s.length := List.length_pos_of_mem ha
  have hne : s ≠ [] := List.ne_nil_of_mem ha
  have hzn : 0 < grid.length := List.length_pos_of_mem hx
  have hs' := pairwise_le_of_lt hf.ssorted
  have hz' := pairwise_le_of_lt hf.zsorted
  have hle : ∀ y ∈ s, s[0] ≤ y := by
    intro y hy
    obtain ⟨i, hi, rfl⟩ := List.getElem_of_mem hy
    exact getElem_le_of_le hs' (by omega) hi
  have hge : ∀ y ∈ s, y ≤ s[s.length - 1] := by
    intro y hy
    obtain ⟨i, hi, rfl⟩ := List.getElem_of_mem hy
    exact getElem_le_of_le hs' (by omega) (by omega)
  have hzx0 : grid[0] ≤ x := by
    obtain ⟨i, hi, rfl⟩ := List.getElem_of_mem hx
    exact getElem_le_of_le hz' (by omega) hi
  have hzx1 : x ≤ grid[grid.length - 1] := by
    obtain ⟨i, hi, rfl⟩ := List.getElem_of_mem hx
    exact getElem_le_of_le hz' (by omega) (by omega)
  have hx0 : s[0] - eps ≤ x := (sub_le_sub_right (hle a ha) eps).trans ha'
  have hx1 : x ≤ s[s.length - 1] + eps := hb'.trans (add_le_add_left (hge b hb) eps)
  have hint : Range.hasIntersection (⟨s[0] - eps, s[s.length - 1] + eps⟩ : Range K) ⟨grid[0], grid[grid.length - 1]⟩ = true := by
    unfold Range.hasIntersection
    simp only [decide_eq_true_eq, max_le_iff, le_min_iff]
    exact ⟨⟨hx0.trans hx1, hzx0.trans hx1⟩, hx0.trans hzx1, hzx0.trans hzx1⟩
  unfold insertSubgrid
  simp only [List.getElem?_eq_getElem hsn, List.getElem?_eq_getElem (by omega : s.length - 1 < s.length),
    List.getElem?_eq_getElem hzn, List.getElem?_eq_getElem (by omega : grid.length - 1 < grid.length)]
  generalize hrng : (Range.intersect (⟨s[0] - eps, s[s.length - 1] + eps⟩ : Range K)
    ⟨grid[0], grid[grid.length - 1]⟩ ⟨s[0] - eps, s[s.length - 1] + eps⟩).2 = rng
  have hrb : rng.b = max (s[0] - eps) grid[0] ∧ rng.e = min (s[s.length - 1] + eps) grid[grid.length - 1] := by
    unfold Range.intersect at hrng
    rw [if_pos hint] at hrng
    rw [← hrng]; simp
  have hmem : rng.Mem x := by
    unfold Range.Mem
    rw [hrb.1, hrb.2]
    exact ⟨max_le hx0 hzx0, le_min hx1 hzx1⟩
  obtain ⟨⟨i, j⟩, hij⟩ := (C03_closed rng grid hf.zsorted).2.1.2 ⟨x, hx, hmem⟩
  obtain ⟨h1, h2, h3⟩ := (C03_closed rng grid hf.zsorted).1 i j hij
  rw [hij]
  simp only
  have hspan : ∀ m (hm : m < grid.length), rng.Mem grid[m] → InSpan eps grid[m] s := by
    intro m hm hmm
    unfold Range.Mem at hmm
    rw [hrb.1, hrb.2] at hmm
    exact ⟨⟨s[0], List.getElem_mem _, (le_max_left _ _).trans hmm.1⟩,
      ⟨s[s.length - 1], List.getElem_mem _, hmm.2.trans (min_le_left _ _)⟩⟩
  have hcnt := hd.count i j grid[i] grid[j] h1 (List.getElem?_eq_getElem _) (List.getElem?_eq_getElem _)
    (hspan i (by omega) ((h3 i (by omega)).1 ⟨le_rfl, h1⟩)) (hspan j h2 ((h3 j h2).1 ⟨h1, le_rfl⟩))
  rw [(C09_insertWithDuplicates grid _ i (j - i + 1)).1 (by rw [patchEnds_length]; exact hcnt) (by omega)]
  exact ⟨_, _, _, rfl⟩

theorem dense_after {eps : K} {s t grid z : List K} {imin ndup : Nat} (heps : 0 ≤ eps) (hf : SubgridFits s grid)
    (h : insertSubgrid eps s grid = .ok (z, imin, ndup)) (hap : Apart eps s t) (hd : Dense eps t grid) : Dense eps t z := by
  obtain ⟨hz, hin, hn2, hn1, hspan, hlo, hhi, hlo', hhi'⟩ := insert_one heps hf h
  have hpl := patched_length eps s grid
  have hzl : z.length = imin + s.length + (grid.length - (imin + ndup)) := by rw [hz]; simp; omega
  have hnotboth : ∀ x, InSpan eps x s → InSpan eps x t → False := by
    rintro x ⟨⟨a, ha, ha'⟩, ⟨b, hb, hb'⟩⟩ ⟨⟨c, hc, hc'⟩, ⟨d, hd', hd''⟩⟩
    rcases hap with hap | hap
    · exact absurd (hc'.trans hb') (not_le.2 (hap b hb c hc))
    · exact absurd (ha'.trans hd'') (not_le.2 (hap a ha d hd'))
  -- a redshift of the new grid in the span of `t` comes from the old grid
  have hget1 : ∀ i, i < imin → z[i]? = grid[i]? := by
    intro i hi
    rw [hz, List.append_assoc, List.getElem?_append_left (by simp; omega), List.getElem?_take, if_pos hi]
  have hget2 : ∀ i, imin ≤ i → i < imin + s.length → ∀ x, z[i]? = some x → InSpan eps x s := by
    intro i hi1 hi2 x hx
    rw [hz, List.append_assoc, List.getElem?_append_right (by simp; omega), List.getElem?_append_left (by simp; omega)] at hx
    exact hspan x (List.mem_of_getElem? hx)
  have hget3 : ∀ i, imin + s.length ≤ i → z[i]? = grid[i - s.length + ndup]? := by
    intro i hi
    rw [hz, List.getElem?_append_right (by simp; omega), List.getElem?_drop]
    congr 1
    simp; omega
  refine ⟨?_, ?_⟩
  · obtain ⟨x, hx, hxs⟩ := hd.some_in
    obtain ⟨i, hi, rfl⟩ := List.getElem_of_mem hx
    refine ⟨grid[i], ?_, hxs⟩
    by_cases h1 : i < imin
    · exact List.mem_of_getElem? (i := i) (by rw [hget1 i h1]; exact List.getElem?_eq_getElem hi)
    · by_cases h2 : i < imin + ndup
      · exfalso
        have hin' : InSpan eps grid[i] s := by
          have hsn : 0 < s.length := by omega
          refine ⟨?_, ?_⟩
          · by_contra hc
            have := hlo' i hi (by
              intro y hy
              by_contra hc'
              exact hc ⟨y, hy, not_lt.1 hc'⟩)
            omega
          · by_contra hc
            have := hhi' i hi (by
              intro y hy
              by_contra hc'
              exact hc ⟨y, hy, not_lt.1 hc'⟩)
            omega
        exact hnotboth _ hin' hxs
      · refine List.mem_of_getElem? (i := i + s.length - ndup) ?_
        rw [hget3 _ (by omega)]
        rw [show i + s.length - ndup - s.length + ndup = i by omega]
        exact List.getElem?_eq_getElem hi
  · intro i j zi zj hij hi hj hsi hsj
    have hci : ¬ (imin ≤ i ∧ i < imin + s.length) := fun hc => hnotboth _ (hget2 i hc.1 hc.2 _ hi) hsi
    have hcj : ¬ (imin ≤ j ∧ j < imin + s.length) := fun hc => hnotboth _ (hget2 j hc.1 hc.2 _ hj) hsj
    have hjl : j < z.length := (List.getElem?_eq_some_iff.1 hj).1
    by_cases h1 : i < imin
    · by_cases h2 : j < imin
      · exact hd.count i j zi zj hij (by rw [← hget1 i h1]; exact hi) (by rw [← hget1 j h2]; exact hj) hsi hsj
      · exfalso
        -- the window `s` lies between the two redshifts
        have hjj : imin + s.length ≤ j := by omega
        have hgi : grid[i]? = some zi := by rw [← hget1 i h1]; exact hi
        have hgj : grid[j - s.length + ndup]? = some zj := by rw [← hget3 j hjj]; exact hj
        obtain ⟨hgi1, hgi2⟩ := List.getElem?_eq_some_iff.1 hgi
        obtain ⟨hgj1, hgj2⟩ := List.getElem?_eq_some_iff.1 hgj
        have hsn : 0 < s.length := by omega
        have hlo1 := hlo i hgi1 h1 s[0] (List.getElem_mem _)
        have hhi1 := hhi _ hgj1 (by omega) s[0] (List.getElem_mem _)
        rw [hgi2] at hlo1
        rw [hgj2] at hhi1
        obtain ⟨⟨c, hc, hc'⟩, _⟩ := hsi
        obtain ⟨_, ⟨d, hd', hd''⟩⟩ := hsj
        rcases hap with hap | hap
        · have h5 := hap s[0] (List.getElem_mem _) c hc
          have h6 : s[0] - eps ≤ s[0] + eps := by
            have : s[0] - eps ≤ s[0] := sub_le_self _ heps
            exact this.trans (le_add_of_nonneg_right heps)
          exact absurd (h5.trans_le (hc'.trans (hlo1.le.trans h6))) (lt_irrefl _)
        · have h5 := hap s[0] (List.getElem_mem _) d hd'
          have h6 : s[0] - eps ≤ s[0] + eps := by
            have : s[0] - eps ≤ s[0] := sub_le_self _ heps
            exact this.trans (le_add_of_nonneg_right heps)
          exact absurd (hhi1.trans_le (hd''.trans (h5.le.trans h6))) (lt_irrefl _)
    · have h2 : imin + s.length ≤ i := by omega
      have h3 : imin + s.length ≤ j := by omega
      have := hd.count (i - s.length + ndup) (j - s.length + ndup) zi zj (by omega) (by rw [← hget3 i h2]; exact hi)
        (by rw [← hget3 j h3]; exact hj) hsi hsj
      omega

theorem refineLoop_total (k : Flt V S C) (eps : K) (heps : 0 ≤ eps) (wins : List (List K)) :
    ∀ (grid : List K) (r : LmRes K V S C), (∀ s ∈ wins, SubgridFits s grid ∧ Dense eps s grid) → Aligned grid.length r →
      wins.Pairwise (Apart eps) → ∃ y, refineLoop k eps wins grid r = .ok y := by
  induction wins with
  | nil => intro grid r _ _ _; exact ⟨_, rfl⟩
  | cons s ss ih =>
    intro grid r hf ha hpw
    obtain ⟨hfs, hds⟩ := hf s (by simp)
    obtain ⟨z, imin, ndup, hx⟩ := insertSubgrid_total heps hfs hds
    obtain ⟨hz, hin, hn2, hn1, _⟩ := insert_one heps hfs hx
    have hpl := patched_length eps s grid
    obtain ⟨hpw1, hpw2⟩ := List.pairwise_cons.1 hpw
    have hzl : z.length = grid.length + (patched eps s grid).length - ndup := by
      rw [hz]; simp; omega
    have hal := spliceAll_aligned k ha hin (count := (patched eps s grid).length) (by omega)
    rw [← hzl] at hal
    obtain ⟨y, hy⟩ := ih z _ (fun t ht => ⟨fits_after heps hfs hx (hf t (by simp [ht])).1,
      dense_after heps hfs hx (hpw1 t ht) (hf t (by simp [ht])).2⟩) hal hpw2
    unfold refineLoop
    rw [hx, Res.bind_ok]
    simp only
    rw [updateVectors_ok k ha hin (by omega), Res.bind_ok, hy, Res.bind_ok]
    exact ⟨_, rfl⟩

/-- C97, no failure: when every window is at least as dense as the grid and the windows do not meet, the refinement succeeds. -/
theorem C97_refine_total (k : Flt V S C) (eps : K) (heps : 0 ≤ eps) (wins : List (List K)) (grid : List K)
    (r : LmRes K V S C) (hf : ∀ s ∈ wins, SubgridFits s grid) (hd : ∀ s ∈ wins, Dense eps s grid)
    (ha : Aligned grid.length r) (hap : wins.Pairwise (Apart eps)) : ∃ y, refine k eps wins grid r = .ok y := by
  obtain ⟨y, hy⟩ := refineLoop_total k eps heps wins grid r (fun s hs => ⟨hf s hs, hd s hs⟩) ha hap
  unfold refine
  rw [hy, Res.bind_ok]
  exact ⟨_, rfl⟩

end grid

/-- C97: `Init` gives aligned results full of default values, for every previous content of the object when there are ratio
catalogs, and for a new object otherwise. -/
theorem C97_init (k : Flt V S C) (r : LmRes Z V S C) (zs : List Z) (nTpl nRat : Nat) (priors : List V)
    (hp : priors.length = nRat) (hr : 0 < nRat ∨ r.ratHa = []) :
    ∃ r', init k r zs nTpl nRat priors = .ok r' ∧ Aligned zs.length r' ∧ r'.redshifts = zs ∧ r'.tplCont.length = nTpl ∧
      r'.ratChi2.length = nRat ∧ r'.ratPrior = priors ∧
      (∀ x ∈ r'.chi2 ++ r'.scaleMarg ++ r'.chi2Cont ++ r'.scaleMargCont, x = k.nan) ∧
      (∀ row ∈ r'.tplCont ++ r'.ratChi2, ∀ x ∈ row, x = k.dmax) ∧ (∀ x ∈ r'.lmSol, x = k.sol0) ∧ (∀ x ∈ r'.contSol, x = k.cont0) := by
  unfold init
  rw [if_neg (by simpa using hp)]
  simp only
  have hrep : ∀ {β : Type} {n m : Nat} {v : β} {t : List β}, t ∈ List.replicate m (List.replicate n v) → t.length = n := by
    intro β n m v t ht
    rw [(List.mem_replicate.1 ht).2]; simp
  have hrep2 : ∀ {β : Type} {n m : Nat} {v x : β} {t : List β}, t ∈ List.replicate m (List.replicate n v) → x ∈ t → x = v := by
    intro β n m v x t ht hx
    rw [(List.mem_replicate.1 ht).2] at hx
    exact (List.mem_replicate.1 hx).2
  split
  · rename_i h0
    refine ⟨_, rfl, ⟨by simp, by simp, by simp, by simp, by simp, by simp, fun t ht => hrep ht, fun t ht => hrep ht,
      ⟨by simp, fun t ht => hrep ht⟩, ⟨by simp, fun t ht => hrep ht⟩, ⟨by simp, fun t ht => hrep ht⟩,
      ⟨by simp, fun t ht => hrep ht⟩, ⟨by simp, fun t ht => hrep ht⟩⟩, rfl, by simp, by simp, rfl, ?_, ?_, ?_, ?_⟩
    · intro x hx
      simp only [List.mem_append, List.mem_replicate] at hx
      aesop
    · intro row hrow x hx
      rcases List.mem_append.1 hrow with h | h
      · exact hrep2 h hx
      · exact hrep2 h hx
    · intro x hx; exact (List.mem_replicate.1 hx).2
    · intro x hx; exact (List.mem_replicate.1 hx).2
  · rename_i h0
    have hn : nRat = 0 := by omega
    subst hn
    have hha : r.ratHa = [] := by rcases hr with h | h; exact absurd h h0; exact h
    have hpn : priors = [] := List.length_eq_zero_iff.1 hp
    refine ⟨_, rfl, ⟨by simp, by simp, by simp, by simp, by simp, by simp, fun t ht => hrep ht, by simp,
      by simp, by simp, by simp [hha], by simp, by simp⟩, rfl, by simp, by simp, by simp [hpn], ?_, ?_, ?_, ?_⟩
    · intro x hx
      simp only [List.mem_append, List.mem_replicate] at hx
      aesop
    · intro row hrow x hx
      rcases List.mem_append.1 hrow with h | h
      · exact hrep2 h hx
      · simp at h
    · intro x hx; exact (List.mem_replicate.1 hx).2
    · intro x hx; exact (List.mem_replicate.1 hx).2

/-- A result on a grid of `n` redshifts, used in the examples: the values of a column are numbered. -/
def exRes (zs : List ℤ) : LmRes ℤ (Option ℕ) ℕ ℕ :=
  let c := (List.range zs.length).map some
  ⟨zs, c, c, List.range zs.length, List.range zs.length, c, c, [c], [c, c], [c, c], [c.map fun _ => true, c.map fun _ => true],
    [c.map fun _ => true, c.map fun _ => true], [c.map fun _ => 5, c.map fun _ => 6], [none, none], [c, c]⟩

/-- The constants of the examples. -/
def exFlt : Flt (Option ℕ) ℕ ℕ := ⟨none, some 1000, some 0, 77, 78⟩

theorem exAligned (zs : List ℤ) : Aligned zs.length (exRes zs) := by
  constructor <;> simp [exRes]

/-- C98 is false for windows that meet: the refined redshifts of the first candidate inside the second window are replaced
and no longer found, so the second pass stops with an exception. Here the windows of candidates 4 and 7 on a grid of step 2. -/
theorem C98_overlap_counterexample : ∃ (grid : List ℤ) (w1 w2 : List ℤ) (grid' : List ℤ) (wins' : List (List ℤ))
    (r' : LmRes ℤ (Option ℕ) ℕ ℕ),
    SubgridFits w1 grid ∧ SubgridFits w2 grid ∧ Aligned grid.length (exRes grid) ∧
    refine exFlt 0 [w1, w2] grid (exRes grid) = .ok (grid', wins', r') ∧
    wins'[0]? = some w1 ∧ 5 ∈ w1 ∧ getIndex r'.redshifts 5 = .throw .INTERNAL_ERROR := by
  refine ⟨[0, 8, 16, 24], [1, 3, 5, 7, 9], [4, 6, 8, 10, 12], [0, 1, 3, 4, 6, 8, 10, 12, 16, 24],
    [[1, 3, 5, 7, 9], [4, 6, 8, 10, 12]],
    { spliceAll exFlt 3 3 5 (spliceAll exFlt 1 1 5 (exRes [0, 8, 16, 24])) with redshifts := [0, 1, 3, 4, 6, 8, 10, 12, 16, 24] },
    ⟨by decide, by decide, by decide, by simp, by simp⟩, ⟨by decide, by decide, by decide, by simp, by simp⟩, exAligned _,
    by decide +kernel, rfl, by decide, by decide +kernel⟩

/-- C97: an object used before with ratio catalogs and initialised again without keeps its old table of strong H-alpha flags,
on the old grid. -/
theorem C97_init_stale : ∃ r', init exFlt (exRes [0, 8, 16]) [1, 2] 0 0 [] = .ok r' ∧ ¬ Aligned 2 r' ∧
    r'.ratHa = [[true, true, true], [true, true, true]] ∧ r'.ratStrong = [] := by
  refine ⟨_, rfl, ?_, by decide, rfl⟩
  intro h
  exact absurd h.ratHa.1 (by decide)

/-- The hypotheses of C97 and C98 are met by two windows around 4 and 20, and the refined results are those of the theorems. -/
example : (∀ s ∈ [[2, 4, 6], [18, 20, 22]], SubgridFits s ([0, 4, 8, 16, 20, 24] : List ℤ)) ∧
    [[2, 4, 6], [18, 20, 22]].Pairwise (Apart (0 : ℤ)) ∧
    refine exFlt 0 [[2, 4, 6], [18, 20, 22]] [0, 4, 8, 16, 20, 24] (exRes [0, 4, 8, 16, 20, 24]) =
      .ok ([0, 2, 4, 6, 8, 16, 18, 20, 22, 24], [[2, 4, 6], [18, 20, 22]],
        { spliceAll exFlt 6 1 3 (spliceAll exFlt 1 1 3 (exRes [0, 4, 8, 16, 20, 24])) with
          redshifts := [0, 2, 4, 6, 8, 16, 18, 20, 22, 24] }) ∧
    (spliceAll exFlt 6 1 3 (spliceAll exFlt 1 1 3 (exRes [0, 4, 8, 16, 20, 24]))).chi2 =
      [some 0, none, none, none, some 2, some 3, none, none, none, some 5] := by
  refine ⟨?_, ?_, by decide +kernel, by decide +kernel⟩
  · intro s hs
    simp only [List.mem_cons, List.not_mem_nil, or_false] at hs
    rcases hs with rfl | rfl <;> exact ⟨by decide, by decide, by decide, by simp, by simp⟩
  · simp [Apart]

example : ∀ s ∈ [[2, 4, 6], [18, 20, 22]], Dense (0 : ℤ) s ([0, 4, 8, 16, 20, 24] : List ℤ) := by
  have hin : ∀ i : Nat, ∀ z : ℤ, ([0, 4, 8, 16, 20, 24] : List ℤ)[i]? = some z → InSpan 0 z [2, 4, 6] → i = 1 := by
    intro i z hi
    rcases i with _ | _ | _ | _ | _ | _ | i <;> simp at hi <;> subst hi <;> simp [InSpan]
  have hin2 : ∀ i : Nat, ∀ z : ℤ, ([0, 4, 8, 16, 20, 24] : List ℤ)[i]? = some z → InSpan 0 z [18, 20, 22] → i = 4 := by
    intro i z hi
    rcases i with _ | _ | _ | _ | _ | _ | i <;> simp at hi <;> subst hi <;> simp [InSpan]
  intro s hs
  simp only [List.mem_cons, List.not_mem_nil, or_false] at hs
  rcases hs with rfl | rfl
  · refine ⟨⟨4, by simp, by simp [InSpan]⟩, ?_⟩
    intro i j zi zj hij h1 h2 h3 h4
    have a := hin i zi h1 h3
    have b := hin j zj h2 h4
    subst a; subst b; simp
  · refine ⟨⟨20, by simp, by simp [InSpan]⟩, ?_⟩
    intro i j zi zj hij h1 h2 h3 h4
    have a := hin2 i zi h1 h3
    have b := hin2 j zj h2 h4
    subst a; subst b; simp

end LmResult
end Amazed
