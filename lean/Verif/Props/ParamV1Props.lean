import Verif.Model.ParamV1
import Verif.Props.ParamV2Props
import Mathlib.Data.List.Pairwise
import Mathlib.Data.List.Nodup

/-!
# C211, C212: conversion of the version-1 parameter files
-/

set_option linter.unusedVariables false
set_option linter.unusedSimpArgs false

namespace Amazed
namespace ParamV1

/-! ### Specification of the renaming -/

/-- The new name of a string: the second column of the first row that has it in the first column, itself if no row
has it. -/
def lookup (rows : List (String × String)) (s : String) : String :=
  match rows.find? (fun r => r.1 == s) with
  | some r => r.2
  | none => s

/-- The old names. -/
def olds : List String := table.map (·.1)

/-! ### The loop over the rows is one simultaneous renaming -/

mutual
theorem ren_ren (f g : String → String) : ∀ j, ren g (ren f j) = ren (fun s => g (f s)) j
  | .null => rfl
  | .bool _ => rfl
  | .num _ => rfl
  | .str _ => rfl
  | .arr l => by simp only [ren, renL_renL f g l]
  | .obj o => by simp only [ren, renO_renO f g o]
theorem renL_renL (f g : String → String) : ∀ l, renL g (renL f l) = renL (fun s => g (f s)) l
  | [] => rfl
  | j :: r => by simp only [renL, ren_ren f g j, renL_renL f g r]
theorem renO_renO (f g : String → String) : ∀ o, renO g (renO f o) = renO (fun s => g (f s)) o
  | [] => rfl
  | (k, j) :: r => by simp only [renO, ren_ren f g j, renO_renO f g r]
end

mutual
theorem ren_id : ∀ j, ren (fun s => s) j = j
  | .null => rfl
  | .bool _ => rfl
  | .num _ => rfl
  | .str _ => rfl
  | .arr l => by simp only [ren, renL_id l]
  | .obj o => by simp only [ren, renO_id o]
theorem renL_id : ∀ l, renL (fun s => s) l = l
  | [] => rfl
  | j :: r => by simp only [renL, ren_id j, renL_id r]
theorem renO_id : ∀ o, renO (fun s => s) o = o
  | [] => rfl
  | (k, j) :: r => by simp only [renO, ren_id j, renO_id r]
end

theorem renText_seq (rows : List (String × String)) (j : J) : renText rows j = ren (seq rows) j := by
  unfold renText
  induction rows generalizing j with
  | nil => exact (ren_id j).symm
  | cons r rs ih =>
    simp only [List.foldl_cons]
    rw [ih, ren_ren]
    rfl

theorem seq_fix {rows : List (String × String)} {s : String} (h : ∀ r ∈ rows, r.1 = s → r.2 = s) :
    seq rows s = s := by
  induction rows with
  | nil => rfl
  | cons r rs ih =>
    have e : seq (r :: rs) s = seq rs (one r s) := rfl
    have h1 : one r s = s := by
      unfold one
      split
      next hh => exact h r (List.mem_cons_self ..) hh.symm
      next => rfl
    rw [e, h1]
    exact ih fun r hr => h r (List.mem_cons_of_mem _ hr)

theorem seq_lookup {rows : List (String × String)} (h : rows.Pairwise fun a b => b.1 = a.2 → b.2 = a.2)
    (s : String) : seq rows s = lookup rows s := by
  induction rows with
  | nil => rfl
  | cons r rs ih =>
    rw [List.pairwise_cons] at h
    have e : seq (r :: rs) s = seq rs (one r s) := rfl
    rw [e]
    unfold lookup one
    by_cases hs : r.1 = s
    · have hb : (r.1 == s) = true := by simp [hs]
      simp only [List.find?, hb]
      rw [if_pos hs.symm]
      exact seq_fix fun b hb hb1 => h.1 b hb hb1
    · have hb : (r.1 == s) = false := by simp [hs]
      have hs' : ¬ s = r.1 := fun e => hs e.symm
      simp only [List.find?, hb, hs', if_false]
      exact ih h.2

theorem renText_lookup {rows : List (String × String)} (h : rows.Pairwise fun a b => b.1 = a.2 → b.2 = a.2)
    (j : J) : renText rows j = ren (lookup rows) j := by
  have : seq rows = lookup rows := funext (seq_lookup h)
  rw [renText_seq, this]

/-- The check of `table_noChain`. -/
def noChain : List (String × String) → Bool
  | [] => true
  | a :: r => r.all (fun b => !(b.1 == a.2) || b.2 == a.2) && noChain r

theorem noChain_pairwise {l : List (String × String)} (h : noChain l = true) :
    l.Pairwise fun a b => b.1 = a.2 → b.2 = a.2 := by
  induction l with
  | nil => exact List.Pairwise.nil
  | cons a r ih =>
    simp only [noChain, Bool.and_eq_true, List.all_eq_true] at h
    rw [List.pairwise_cons]
    refine ⟨fun b hb hb1 => ?_, ih h.2⟩
    have := h.1 b hb
    simpa [hb1] using this

/-- No later row of the table changes a new name of an earlier row. -/
theorem table_noChain : table.Pairwise fun a b => b.1 = a.2 → b.2 = a.2 :=
  noChain_pairwise (by decide +kernel)

/-- **C211 (simultaneous).** The replacements in the text one after the other rename each key and each string value
once, by the table, and change nothing else. -/
theorem C211_simultaneous_partial (j : J) : renText table j = ren (lookup table) j := by
  exact renText_lookup table_noChain j

/-- **C211 (new names).** Each row of the table is honoured. -/
theorem C211_rows : ∀ r ∈ table, lookup table r.1 = r.2 := by decide +kernel

/-- **C211 (the rest).** A string that is no old name is unchanged. -/
theorem C211_other {s : String} (h : s ∉ olds) : lookup table s = s := by
  unfold lookup
  have : table.find? (fun r => r.1 == s) = none := by
    rw [List.find?_eq_none]
    intro r hr he
    exact h (List.mem_map.2 ⟨r, hr, by simpa using he⟩)
  rw [this]

/-- **C211 (idempotent).** New names are unchanged: a file that already uses them is not altered. -/
theorem C211_idempotent (s : String) : lookup table (lookup table s) = lookup table s := by
  by_cases h : s ∈ olds
  · obtain ⟨r, hr, rfl⟩ := List.mem_map.1 h
    have : ∀ r ∈ table, lookup table r.2 = r.2 := by decide +kernel
    rw [C211_rows r hr, this r hr]
  · rw [C211_other h, C211_other h]

/-- **C211 (no merging).** Two different old names have different new names, except `firstpass` and `firstPass`. -/
theorem C211_injective : ∀ a ∈ olds, ∀ b ∈ olds, lookup table a = lookup table b →
    a = b ∨ (a = "firstpass" ∧ b = "firstPass") ∨ (a = "firstPass" ∧ b = "firstpass") := by
  have h : ∀ r ∈ table, ∀ q ∈ table, r.2 = q.2 →
      r.1 = q.1 ∨ (r.1 = "firstpass" ∧ q.1 = "firstPass") ∨ (r.1 = "firstPass" ∧ q.1 = "firstpass") := by
    decide +kernel
  intro a ha b hb hab
  obtain ⟨r, hr, rfl⟩ := List.mem_map.1 ha
  obtain ⟨q, hq, rfl⟩ := List.mem_map.1 hb
  rw [C211_rows r hr, C211_rows q hq] at hab
  exact h r hr q hq hab

/-! ### Nothing is lost when the new keys are distinct -/

theorem loadsO_other {o : Dict} {k : String} : ∀ {d : Dict}, k ∉ o.map (·.1) →
    Dict.get k (loadsO d o) = Dict.get k d := by
  induction o with
  | nil => intro d _; rfl
  | cons e r ih =>
    intro d h
    obtain ⟨k', v⟩ := e
    simp only [List.map_cons, List.mem_cons, not_or] at h
    simp only [loadsO]
    rw [ih h.2, Dict.get_put]
    simp [Ne.symm h.1]

theorem loadsO_get {o : Dict} {k : String} {v : J} : ∀ {d : Dict}, (o.map (·.1)).Nodup → (k, v) ∈ o →
    Dict.get k (loadsO d o) = some (loads v) := by
  induction o with
  | nil => intro d _ h; simp at h
  | cons e r ih =>
    intro d hn h
    obtain ⟨k', w⟩ := e
    simp only [List.map_cons, List.nodup_cons] at hn
    simp only [loadsO]
    rcases List.mem_cons.1 h with h | h
    · cases h
      rw [loadsO_other hn.1, Dict.get_put]
      simp
    · exact ih hn.2 h

theorem mem_renO {f : String → String} {o : Dict} {k : String} {v : J} (h : (k, v) ∈ o) :
    (f k, ren f v) ∈ renO f o := by
  induction o with
  | nil => simp at h
  | cons e r ih =>
    obtain ⟨k', w⟩ := e
    simp only [renO]
    rcases List.mem_cons.1 h with h | h
    · cases h
      exact List.mem_cons_self ..
    · exact List.mem_cons_of_mem _ (ih h)

theorem keys_renO (f : String → String) (o : Dict) : (renO f o).map (·.1) = (o.map (·.1)).map f := by
  induction o with
  | nil => rfl
  | cons e r ih =>
    obtain ⟨k', w⟩ := e
    simp only [renO, List.map_cons, ih]

/-- **C211 (no loss).** In an object whose keys stay distinct once renamed, every member is found under its new
name, with its value renamed. -/
theorem C211_kept {o : Dict} (hn : ((o.map (·.1)).map (lookup table)).Nodup) {k : String} {v : J}
    (h : (k, v) ∈ o) :
    (loads (renText table (.obj o))).field (lookup table k) = some (loads (renText table v)) := by
  rw [C211_simultaneous_partial, C211_simultaneous_partial]
  simp only [ren, loads, J.field]
  refine loadsO_get ?_ (mem_renO h)
  rw [keys_renO]
  exact hn

example : lookup table "lambdarange" = "lambdaRange" ∧ lookup table "firstpass" = "firstPass" ∧
    lookup table "redshiftSampling" = "redshiftSampling" ∧ olds.length = 189 := by decide +kernel

/-- Two keys of the same object can become one: the later wins, without error. -/
theorem C211_merge_counterexample :
    ParamV2.isStr "b" ((loads (renText table (.obj [("firstpass", .str "a"), ("firstPass", .str "b")]))).field
      "firstPass") = true := by decide +kernel

/-- A value the user chose freely (here a directory, and the name of a spectrum model) is renamed when it is an old
name. -/
theorem C211_value_counterexample :
    ParamV2.isStr "lineModel" ((loads (renText table (.obj [("template_dir", .str "linemodel")]))).field
      "templateDir") = true ∧
    (convert [("objects", .arr [.str "LSF"]), ("LSF", .obj [])]).map (fun p => p.map (·.1)) =
      some ["spectrumModels", "lsf"] := by decide +kernel

end ParamV1
end Amazed
