import Verif.Model.ResultStore
import Verif.Props.ScopeProps
import Verif.Props.FlagProps

/-! # C17: the result store -/

namespace Amazed
namespace ResultStore
variable {R : Type}

/-! ## Specification: what was offered to a slot since the last reset -/

/-- A slot of the store: a global name, or a name for a template. The name is the path and the name joined
by a dot (no dot for an empty path). -/
inductive Slot where
  | global (key : String)
  | template (tpl key : String)
deriving DecidableEq

/-- Joining a path and a name. -/
def joinPath (path name : String) : String := if path = "" then name else path ++ "." ++ name

/-- Slot a call writes to. -/
def Op.slot : Op R → Option (Slot × R)
  | .global p n r => some (.global (joinPath p n), r)
  | .perTemplate t p n r => some (.template t (joinPath p n), r)
  | .reset => none

/-- Objects offered to a slot by the calls after the last reset, in order. -/
def offered (slot : Slot) : List (Op R) → List R
  | [] => []
  | o :: ops =>
    if ops.any (fun o => o.slot.isNone) then offered slot ops
    else match o.slot with
      | none => offered slot ops
      | some (s, r) => if s = slot then r :: offered slot ops else offered slot ops

/-- What a getter of a slot returns. -/
def read (s : ResultStore R) : Slot → Res R
  | .global k => s.getGlobal k
  | .template t k => s.getPerTemplate t k

/-- The error of a getter for an unknown name. -/
def Slot.unknown : Slot → Err
  | .global _ => .UNKNOWN_ATTRIBUTE
  | .template _ _ => .INTERNAL_ERROR

/-! ## Lemmas -/

theorem storeKey_eq (p n : String) : storeKey p n = joinPath p n := by
  unfold storeKey joinPath
  by_cases h : p = ""
  · subst h; simp
  · have : p.isEmpty = false := by
      rw [Bool.eq_false_iff]; intro h'; exact h (by simpa using h')
    simp [this, h]

/-- Content of a slot. -/
def content (s : ResultStore R) : Slot → Option R
  | .global k => s.global k
  | .template t k => (match s.perTemplate t with | some m => m k | none => none)

theorem read_eq (s : ResultStore R) (sl : Slot) :
    s.read sl = match s.content sl with | some r => .ok r | none => .throw sl.unknown := by
  cases sl with
  | global k => simp only [read, getGlobal, content, Slot.unknown]; cases s.global k <;> rfl
  | template t k =>
    simp only [read, getPerTemplate, content, Slot.unknown]
    cases s.perTemplate t with
    | none => rfl
    | some m => simp only; cases m k <;> rfl

theorem storeResult_some {m : ResultsMap R} {p n : String} {r x : R} (h : m (joinPath p n) = some x) :
    storeResult m p n r = (m, .throw .INTERNAL_ERROR) := by
  unfold storeResult; rw [storeKey_eq, h]

theorem storeResult_none {m : ResultsMap R} {p n : String} {r : R} (h : m (joinPath p n) = none) :
    storeResult m p n r = (fun k => if k = joinPath p n then some r else m k, .ok ()) := by
  unfold storeResult; rw [storeKey_eq, h]

/-- Content of a template's map. -/
def tplMap (s : ResultStore R) (t : String) : ResultsMap R :=
  match s.perTemplate t with | some m => m | none => fun _ => none

theorem content_template (s : ResultStore R) (t k : String) : s.content (.template t k) = s.tplMap t k := by
  simp only [content, tplMap]; cases s.perTemplate t <;> rfl

theorem step_store (s : ResultStore R) (o : Op R) (sl : Slot) (r : R) (ho : o.slot = some (sl, r)) :
    (s.step o).2 = (if (s.content sl).isNone then .ok () else .throw .INTERNAL_ERROR) ∧
    ∀ sl', (s.step o).1.content sl' =
      if sl' = sl then (match s.content sl with | some x => some x | none => some r) else s.content sl' := by
  cases o with
  | reset => simp [Op.slot] at ho
  | global p n r' =>
    simp only [Op.slot, Option.some.injEq, Prod.mk.injEq] at ho
    obtain ⟨rfl, rfl⟩ := ho
    have hc : s.content (.global (joinPath p n)) = s.global (joinPath p n) := rfl
    have hstep : s.step (.global p n r') =
        ({ s with global := (storeResult s.global p n r').1 }, (storeResult s.global p n r').2) := rfl
    rw [hc, hstep]
    rcases h : s.global (joinPath p n) with _ | x
    · rw [storeResult_none h]
      refine ⟨rfl, ?_⟩
      rintro (k | ⟨t, k⟩) <;> simp [content]
    · rw [storeResult_some h]
      refine ⟨rfl, ?_⟩
      rintro (k | ⟨t, k⟩)
      · by_cases hk : k = joinPath p n
        · subst hk; simp [content, h]
        · simp [content, hk]
      · simp [content]
  | perTemplate t p n r' =>
    simp only [Op.slot, Option.some.injEq, Prod.mk.injEq] at ho
    obtain ⟨rfl, rfl⟩ := ho
    have hstep : s.step (.perTemplate t p n r') =
        ({ s with perTemplate := fun t' => if t' = t then some (storeResult (s.tplMap t) p n r').1
            else s.perTemplate t' }, (storeResult (s.tplMap t) p n r').2) := rfl
    rw [hstep, content_template]
    rcases h : s.tplMap t (joinPath p n) with _ | x
    · rw [storeResult_none h]
      refine ⟨rfl, ?_⟩
      rintro (k | ⟨t', k⟩)
      · simp [content]
      · by_cases ht : t' = t
        · subst ht; simp [content_template, tplMap]
        · simp [content, ht]
    · rw [storeResult_some h]
      refine ⟨rfl, ?_⟩
      rintro (k | ⟨t', k⟩)
      · simp [content]
      · by_cases ht : t' = t
        · subst ht
          by_cases hk : k = joinPath p n
          · subst hk; simp only [if_true]; rw [content_template, ← h]; simp [tplMap]
          · rw [if_neg (by simp [hk]), content_template, content_template]; simp [tplMap]
        · simp [content, ht]

theorem run_append (ops : List (Op R)) (o : Op R) : run (ops ++ [o]) = ((run ops).step o).1 := by
  simp [run, List.foldl_append]

theorem offered_append_reset (slot : Slot) (ops : List (Op R)) (o : Op R) (ho : o.slot = none) :
    offered slot (ops ++ [o]) = [] := by
  induction ops with
  | nil => simp [offered, ho]
  | cons a ops ih => simp [offered, List.any_append, ho, ih]

theorem offered_append_store (slot sl : Slot) (r : R) (ops : List (Op R)) (o : Op R)
    (ho : o.slot = some (sl, r)) :
    offered slot (ops ++ [o]) = offered slot ops ++ (if sl = slot then [r] else []) := by
  induction ops with
  | nil => simp [offered, ho]
  | cons a ops ih =>
    simp only [List.cons_append, offered, List.any_append, List.any_cons, List.any_nil, ho,
      Option.isNone_some, Bool.or_false, ih]
    split
    · rfl
    · cases a.slot with
      | none => rfl
      | some p =>
        obtain ⟨s', r'⟩ := p
        simp only
        split <;> simp

theorem content_run (ops : List (Op R)) (sl : Slot) : (run ops).content sl = (offered sl ops).head? := by
  induction ops using list_reverse_ind with
  | h0 => cases sl <;> rfl
  | h1 ops o ih =>
    rw [run_append]
    cases ho : o.slot with
    | none =>
      rw [offered_append_reset _ _ _ ho]
      cases o with
      | reset => cases sl <;> rfl
      | global p n r => simp [Op.slot] at ho
      | perTemplate t p n r => simp [Op.slot] at ho
    | some q =>
      obtain ⟨s', r⟩ := q
      rw [(step_store _ o s' r ho).2, offered_append_store _ _ _ _ _ ho]
      by_cases h : sl = s'
      · subst h
        rw [if_pos rfl, if_pos rfl, ih]
        cases offered sl ops <;> simp
      · rw [if_neg h, if_neg (Ne.symm h), ih]; simp

/-! ## Theorems -/

/-- **C17** After any history of stores (accepted or refused) and resets, the getter of a slot returns the
first object offered to that slot since the last reset, or throws its "unknown" error if there is none.
So what is stored is never overwritten, and slots of other names or templates do not interfere. -/
theorem C17_read (ops : List (Op R)) (sl : Slot) :
    (run ops).read sl = match (offered sl ops).head? with
      | some r => .ok r
      | none => .throw sl.unknown := by
  rw [read_eq, content_run]

/-- **C17** A store succeeds iff nothing was offered to its slot since the last reset, otherwise it throws
INTERNAL_ERROR. -/
theorem C17_store_outcome (ops : List (Op R)) (o : Op R) (sl : Slot) (r : R) (ho : o.slot = some (sl, r)) :
    ((run ops).step o).2 = if offered sl ops = [] then .ok () else .throw .INTERNAL_ERROR := by
  rw [(step_store _ o sl r ho).1, content_run]
  cases offered sl ops <;> simp

/-- **C17** A refused store changes no readable content at all. -/
theorem C17_refused_unchanged (ops : List (Op R)) (o : Op R) (e : Err)
    (h : ((run ops).step o).2 = .throw e) (sl : Slot) :
    ((run ops).step o).1.read sl = (run ops).read sl := by
  cases ho : o.slot with
  | none => cases o <;> simp [Op.slot] at ho; simp [step] at h
  | some q =>
    obtain ⟨s', r⟩ := q
    obtain ⟨h1, h2⟩ := step_store (run ops) o s' r ho
    rw [h1] at h
    rw [read_eq, read_eq, h2]
    by_cases hs : sl = s'
    · subst hs
      cases hc : (run ops).content sl with
      | none => simp [hc] at h
      | some x => simp
    · rw [if_neg hs]

/-- **C17** The map of all templates for a name holds, for each template, what its own getter returns. -/
theorem C17_allTemplates (ops : List (Op R)) (name tpl : String) :
    (run ops).getAllTemplates name tpl = (offered (.template tpl name) ops).head? :=
  content_run ops (.template tpl name)

/-- **C17** `HasDataset` tells whether the getter with the same arguments succeeds. -/
theorem C17_hasDataset (s : ResultStore R) (m st me n : String) :
    s.hasDataset m st me n = true ↔ ∃ r, s.getGlobal4 m st me n = .ok r := by
  unfold hasDataset getGlobal4 getGlobal
  cases s.global (buildFullname m st me n) <;> simp

/-- **C17** A result stored in the scope `model.stage.method` is what the four-argument getter returns. -/
theorem C17_scoped_store_then_get (s s' : ResultStore R) (sc : ScopeStack) (m st me n : String) (r : R)
    (hm : m ≠ "") (hst : st ≠ "") (hme : me ≠ "") (hsc : sc.names = [m, st, me])
    (h : s.storeScopedGlobal sc n r = (s', .ok ())) :
    s'.getGlobal4 m st me n = .ok r ∧ s'.getScopedGlobal sc n = .ok r := by
  have key : storeKey (currentScopeName sc.names) n = buildFullname m st me n := by
    rw [storeKey_eq, hsc]
    have e : ∀ x : String, x ≠ "" → x.isEmpty = false := by
      intro x hx; rw [Bool.eq_false_iff]; intro h'; exact hx (by simpa using h')
    have hne := dotFold_toList_ne m hm [st, me]
    simp only [joinPath, currentScopeName, if_neg hne, buildFullname, e m hm, e st hst, e me hme]
    simp [dotFold, String.append_assoc]
  have key2 : scopedName sc n = buildFullname m st me n := by
    rw [← key, storeKey_eq]
    unfold scopedName joinPath
    by_cases he : currentScopeName sc.names = ""
    · rw [he, appendName_empty, if_pos rfl]
    · rw [appendName_of_ne he, if_neg he]
  have hs : s'.global (buildFullname m st me n) = some r := by
    rw [← key, storeKey_eq]
    simp only [storeScopedGlobal, storeGlobal] at h
    cases hc : s.global (joinPath (currentScopeName sc.names) n) with
    | some x => rw [storeResult_some hc] at h; simp at h
    | none =>
      rw [storeResult_none hc] at h
      simp only [Prod.mk.injEq, and_true] at h
      rw [← h]; simp
  simp [getGlobal4, getScopedGlobal, key2, getGlobal, hs]

/-- **C17** Scoped stores and scoped getters use the same name, in every scope. -/
theorem C17_scoped_roundtrip (s s' : ResultStore R) (sc : ScopeStack) (n : String) (r : R)
    (h : s.storeScopedGlobal sc n r = (s', .ok ())) : s'.getScopedGlobal sc n = .ok r := by
  have key2 : scopedName sc n = storeKey (currentScopeName sc.names) n := by
    rw [storeKey_eq]
    unfold scopedName joinPath
    by_cases he : currentScopeName sc.names = ""
    · rw [he, appendName_empty, if_pos rfl]
    · rw [appendName_of_ne he, if_neg he]
  simp only [storeScopedGlobal, storeGlobal] at h
  rw [storeKey_eq] at key2
  cases hc : s.global (joinPath (currentScopeName sc.names) n) with
  | some x => rw [storeResult_some hc] at h; simp at h
  | none =>
    rw [storeResult_none hc] at h
    simp only [Prod.mk.injEq, and_true] at h
    simp [getScopedGlobal, key2, getGlobal, ← h]

/-- Names are joined with dots without escaping, so different (path, name) pairs can be the same slot:
the second store is refused. -/
theorem C17_dotted_names_collide (r r' : R) :
    ((run [.global "a" "b.c" r]).step (.global "a.b" "c" r')).2 = .throw .INTERNAL_ERROR := by
  rw [C17_store_outcome _ _ (.global (joinPath "a.b" "c")) r' rfl]
  have : joinPath "a" "b.c" = joinPath "a.b" "c" := by decide
  simp [offered, Op.slot, this]

example : (run [.global "galaxy" "pdf" (1 : Nat), .perTemplate "t" "galaxy" "pdf" 2, .global "galaxy" "pdf" 3]).read
    (.global "galaxy.pdf") = .ok 1 := by decide
example : (run [.global "galaxy" "pdf" (1 : Nat), .reset, .global "galaxy" "pdf" 3]).read
    (.global "galaxy.pdf") = .ok 3 := by decide
example : offered (.template "t" "galaxy.pdf")
    [.global "galaxy" "pdf" (1 : Nat), .perTemplate "t" "galaxy" "pdf" 2] = [2] := by decide

end ResultStore
end Amazed
