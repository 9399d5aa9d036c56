import Verif.Model.PdfOp
import Verif.Props.PdfOpProps

set_option linter.unusedVariables false
set_option linter.unusedSectionVars false

/-! # The prefix of the identifiers does not change the candidates of a first pass -/

namespace Amazed
namespace PdfOp
open LineCat (mapPut mapFind)

theorem prefix_lt (p x y : String) : p ++ x < p ++ y ↔ x < y := by
  rw [String.lt_iff_toList_lt, String.lt_iff_toList_lt, String.toList_append, String.toList_append]
  have h : ∀ (l a b : List Char), l ++ a < l ++ b ↔ a < b := by
    intro l
    induction l with
    | nil => intro a b; exact Iff.rfl
    | cons c cs ih =>
      intro a b
      rw [List.cons_append, List.cons_append, List.cons_lt_cons_iff, ih]
      constructor
      · rintro (h | h)
        · exact absurd h (lt_irrefl _)
        · exact h.2
      · exact fun h => .inr ⟨rfl, h⟩
  exact h _ _ _

theorem prefix_inj (p x y : String) : p ++ x = p ++ y ↔ x = y := by
  constructor
  · intro h
    have h' := congrArg String.toList h
    rw [String.toList_append, String.toList_append] at h'
    exact String.toList_inj.1 (List.append_cancel_left h')
  · intro h; rw [h]

/-- An entry of a map with the prefix put before its key. -/
def ren {B : Type} (p : String) (x : String × B) : String × B := (p ++ x.1, x.2)

theorem mapPut_ren {B : Type} (p k : String) (v : B) : ∀ m : List (String × B), mapPut (p ++ k) v (m.map (ren p)) = (mapPut k v m).map (ren p) := by
  intro m
  induction m with
  | nil => rfl
  | cons x xs ih =>
    obtain ⟨k', w⟩ := x
    rw [List.map_cons]
    unfold mapPut
    simp only [ren, prefix_lt, prefix_inj]
    split_ifs
    · rfl
    · rfl
    · rw [List.map_cons]
      congr 1

theorem mapFind_ren {B : Type} (p k : String) : ∀ m : List (String × B), mapFind (p ++ k) (m.map (ren p)) = mapFind k m := by
  intro m
  induction m with
  | nil => rfl
  | cons x xs ih =>
    obtain ⟨k', w⟩ := x
    rw [List.map_cons]
    unfold mapFind
    simp only [ren, prefix_inj]
    split_ifs
    · rfl
    · exact ih

theorem putPeaks_ren (p : String) : ∀ (pts : List (ℝ × Option ℝ)) (i : Nat) (m : List (String × Found)),
    putPeaks "" p i pts (m.map (ren p)) = (putPeaks "" "" i pts m).map (ren p) := by
  intro pts
  induction pts with
  | nil => intro i m; rfl
  | cons x xs ih =>
    intro i m
    have e : ∀ q : String, ∀ m', putPeaks "" q i (x :: xs) m' = putPeaks "" q (i + 1) xs (mapPut (q ++ toString i) ⟨x.1, x.2, ""⟩ m') := fun _ _ => rfl
    rw [e, e, mapPut_ren, String.empty_append, ih]

theorem search_ren (c : Cfg) (sorter : List (Option ℝ) → List Nat) (zs logp : List ℝ) (p : String) :
    search { c with pre := p } sorter zs logp (windows [] []) =
      search { c with pre := "" } sorter zs logp (windows [] []) >>= fun m => .ok (m.map (ren p)) := by
  unfold search windows
  rw [if_pos rfl]
  unfold searchLoop
  have he : ∀ q, Cfg.ext { c with pre := q } = c.ext := fun _ => rfl
  simp only [he]
  cases Extremum.find (c.ext ⟨0, 0⟩) sorter zs (logp.map some) ([("", (⟨0, 0⟩ : Range ℝ))].length == 1) with
  | throw e => rfl
  | ub => rfl
  | ok pts =>
    simp only [Res.bind_ok, searchLoop, prefixOf, if_true]
    have h := putPeaks_ren p pts 0 []
    rw [List.map_nil] at h
    rw [h, List.length_map]
    split_ifs <;> rfl

/-- A candidate with the prefix put before its identifier. -/
def renC (p : String) (c : Candidates.Cand ℝ) : Candidates.Cand ℝ := { c with id := p ++ c.id }

/-- The same for its slot. -/
def renS (p : String) (s : Candidates.Slot ℝ) : Candidates.Slot ℝ := { s with cand := renC p s.cand }

/-- The same for a ranked candidate. -/
def renOut (p : String) (o : Out) : Out := { o with id := p ++ o.id }

theorem withDeltaz_ren (p : String) (zs logp : List ℝ) : ∀ l : List (String × ℝ × ℝ),
    Candidates.withDeltaz zs logp (l.map (ren p)) = Candidates.withDeltaz zs logp l >>= fun r => .ok (r.map (renC p)) := by
  intro l
  induction l with
  | nil => rfl
  | cons c cs ih =>
    rw [List.map_cons]
    unfold Candidates.withDeltaz
    rw [ih]
    simp only [ren]
    cases Deltaz.getDeltaz zs logp c.2.1 with
    | throw e => rfl
    | ub => rfl
    | ok dz =>
      simp only [Res.bind_ok]
      cases Candidates.withDeltaz zs logp cs <;> rfl

theorem trimStep_ren (p : String) (h l : Candidates.Slot ℝ) :
    Candidates.trimStep (renS p h) (renS p l) = (renS p (Candidates.trimStep h l).1, renS p (Candidates.trimStep h l).2) := by
  have e : ∀ (A B D : Prop) [Decidable A] [Decidable B] [Decidable D] (w x y z : Candidates.Slot ℝ × Candidates.Slot ℝ),
      (if A then (renS p w.1, renS p w.2) else if B then (renS p x.1, renS p x.2) else if D then (renS p y.1, renS p y.2) else (renS p z.1, renS p z.2)) =
        (renS p (if A then w else if B then x else if D then y else z).1, renS p (if A then w else if B then x else if D then y else z).2) := by
    intro A B D _ _ _ w x y z
    split_ifs <;> rfl
  exact e (l.rng.e - h.rng.b ≤ 0)
    ((Candidates.smallRatio (l.rng.e - h.rng.b) (h.rng.e - h.rng.b) && Candidates.smallRatio (l.rng.e - h.rng.b) (l.rng.e - l.rng.b)) = true)
    (l.cand.valProba > h.cand.valProba) (h, l)
    ({ h with rng := ⟨l.rng.e - 1 / 2 * (l.rng.e - h.rng.b), h.rng.e⟩ }, { l with rng := ⟨l.rng.b, l.rng.e - 1 / 2 * (l.rng.e - h.rng.b)⟩ })
    ({ h with dup := true }, l) (h, { l with dup := true })

theorem trim_ren (p : String) : ∀ (l : List (Candidates.Slot ℝ)) (h : Candidates.Slot ℝ),
    Candidates.trim (renS p h) (l.map (renS p)) = (Candidates.trim h l).map (renS p) := by
  intro l
  induction l with
  | nil => intro h; rfl
  | cons x xs ih =>
    intro h
    rw [List.map_cons]
    unfold Candidates.trim
    rw [trimStep_ren, ih]
    rfl

theorem setRanges_ren (p : String) (pdf : Range ℝ) (l : List (Candidates.Cand ℝ)) :
    Candidates.setIntegrationRanges pdf (l.map (renC p)) = Candidates.setIntegrationRanges pdf l >>= fun r => .ok (r.map (renS p)) := by
  cases l with
  | nil => rfl
  | cons c cs =>
    unfold Candidates.setIntegrationRanges
    have e1 : (List.map (renC p) (c :: cs)).map (fun c => (⟨c, Candidates.initRange pdf c, false⟩ : Candidates.Slot ℝ)) =
        renS p ⟨c, Candidates.initRange pdf c, false⟩ ::
          (cs.map fun c => (⟨c, Candidates.initRange pdf c, false⟩ : Candidates.Slot ℝ)).map (renS p) := by
      simp only [List.map_cons, List.map_map]
      rfl
    rw [e1, List.map_cons]
    simp only
    rw [trim_ren, List.any_map]
    have e2 : (Candidates.bad ∘ renS p) = (Candidates.bad : Candidates.Slot ℝ → Bool) := rfl
    rw [e2]
    split_ifs <;> rfl

theorem probaLoop_ren (p : String) (zs logp : List ℝ) (slots : List (Candidates.Slot ℝ)) : ∀ l : List (Candidates.Cand ℝ),
    Candidates.probaLoop zs logp (slots.map (renS p)) (l.map (renC p)) =
      Candidates.probaLoop zs logp slots l >>= fun r => .ok (r.map (ren p)) := by
  intro l
  induction l with
  | nil => rfl
  | cons c cs ih =>
    rw [List.map_cons]
    unfold Candidates.probaLoop
    have e : (slots.map (renS p)).find? (fun s => s.cand.id == (renC p c).id) = (slots.find? fun s => s.cand.id == c.id).map (renS p) := by
      rw [List.find?_map]
      congr 2
      funext s
      simp only [Function.comp, renS, renC]
      rw [Bool.eq_iff_iff]
      simp only [beq_iff_eq]
      exact prefix_inj _ _ _
    rw [e, ih]
    cases slots.find? fun s => s.cand.id == c.id with
    | none => rfl
    | some s =>
      simp only [Option.map_some]
      have : Candidates.slotProba zs logp (renS p s) = Candidates.slotProba zs logp s := rfl
      rw [this]
      cases Candidates.slotProba zs logp s with
      | throw e => rfl
      | ub => rfl
      | ok v =>
        simp only [Res.bind_ok]
        cases Candidates.probaLoop zs logp slots cs <;> rfl

theorem rank_ren (p : String) (n : Int) (l : List (String × ℝ)) :
    Candidates.rank n (l.map (ren p)) = (Candidates.rank n l).map fun x => (ren p x.1, x.2) := by
  unfold Candidates.rank Candidates.sortByProba
  rw [← List.map_reverse, ← List.map_mergeSort (r := fun a b : String × ℝ => decide (a.2 ≤ b.2)) (f := ren p) (fun a _ b _ => rfl),
    ← List.map_reverse, ← List.map_take, List.length_map, List.zipIdx_map]
  congr 1

/-- `std::sort` by redshift does not look at the identifiers. -/
def IgnoresIds (zsorter : List (Candidates.Cand ℝ) → List (Candidates.Cand ℝ)) : Prop :=
  ∀ (p : String) (l : List (Candidates.Cand ℝ)), zsorter (l.map (renC p)) = (zsorter l).map (renC p)

theorem candidates_ren {zsorter : List (Candidates.Cand ℝ) → List (Candidates.Cand ℝ)} (hz : IgnoresIds zsorter) (p : String) (n : Int)
    (zs logp : List ℝ) (l : List (String × ℝ × ℝ)) :
    Candidates.compute zsorter n zs logp (l.map (ren p)) =
      Candidates.compute zsorter n zs logp l >>= fun r => .ok (r.map fun x => (ren p x.1, x.2)) := by
  unfold Candidates.compute
  rw [withDeltaz_ren]
  cases Candidates.withDeltaz zs logp l with
  | throw e => rfl
  | ub => rfl
  | ok cs =>
    simp only [Res.bind_ok]
    cases Res.at_ zs 0 with
    | throw e => rfl
    | ub => rfl
    | ok zb =>
      simp only [Res.bind_ok]
      cases Res.at_ zs (zs.length - 1) with
      | throw e => rfl
      | ub => rfl
      | ok ze =>
        simp only [Res.bind_ok]
        rw [hz, setRanges_ren]
        cases Candidates.setIntegrationRanges ⟨zb, ze⟩ (zsorter cs) with
        | throw e => rfl
        | ub => rfl
        | ok slots =>
          simp only [Res.bind_ok]
          rw [probaLoop_ren]
          cases Candidates.probaLoop zs logp slots cs with
          | throw e => rfl
          | ub => rfl
          | ok ps =>
            simp only [Res.bind_ok]
            rw [rank_ren]

/-- With another prefix a first pass finds the same candidates, in the same order, with the other identifiers. -/
theorem compute_ren {zsorter : List (Candidates.Cand ℝ) → List (Candidates.Cand ℝ)} (hz : IgnoresIds zsorter) (c : Cfg)
    (sorter : List (Option ℝ) → List Nat) (regrid : Res (List ℝ)) (a : Pdfz.ChisquareArray) (p : String) :
    compute { c with pre := p } sorter zsorter regrid a [] [] =
      compute { c with pre := "" } sorter zsorter regrid a [] [] >>= fun r => .ok (r.map (renOut p)) := by
  unfold compute
  rw [if_neg (by simp), if_neg (by simp)]
  cases regrid with
  | throw e => rfl
  | ub => rfl
  | ok g =>
    simp only [Res.bind_ok]
    by_cases hg : g ≠ a.redshifts
    · rw [if_pos hg, if_pos hg]; rfl
    · rw [if_neg hg, if_neg hg]
      cases Pdfz.combinePdf c.opt a with
      | throw e => rfl
      | ub => rfl
      | ok q =>
        simp only [Res.bind_ok]
        rw [search_ren]
        cases search { c with pre := "" } sorter a.redshifts q (windows [] []) with
        | throw e => rfl
        | ub => rfl
        | ok m =>
          simp only [Res.bind_ok]
          have e : (m.map (ren p)).map (fun x => (x.1, x.2.z, x.2.val.getD 0)) = (m.map fun x => (x.1, x.2.z, x.2.val.getD 0)).map (ren p) := by
            rw [List.map_map, List.map_map]; rfl
          rw [e, candidates_ren hz]
          cases Candidates.compute zsorter c.maxCand a.redshifts q (m.map fun x => (x.1, x.2.z, x.2.val.getD 0)) with
          | throw e => rfl
          | ub => rfl
          | ok r =>
            simp only [Res.bind_ok]
            congr 1
            rw [List.filterMap_map, List.map_filterMap]
            congr 1
            funext x
            simp only [Function.comp, outOf, ren]
            rw [show mapFind (p ++ x.1.1) (m.map (ren p)) = mapFind x.1.1 m from mapFind_ren _ _ _]
            cases mapFind x.1.1 m <;> rfl

end PdfOp
end Amazed
