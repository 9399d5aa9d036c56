import Mathlib.Tactic.Tauto
import Verif.Model.Scope

/-! # C14, C15, C16: scope stack, guards and scoped names -/

namespace Amazed
namespace ScopeStack

theorem ext' {s t : ScopeStack} (h1 : s.names = t.names) (h2 : ∀ x, s.level x = t.level x) : s = t := by
  cases s; cases t; simp_all; funext x; exact h2 x

/-! ## Specification -/

/-- States a user can bring about: a stack built from names, then any pushes (successful or failing) and
any pops of a non-empty stack. -/
inductive Reachable : ScopeStack → Prop
  | init (names : List String) : Reachable (ofNames names)
  | push {s : ScopeStack} (v : String) (t : ScopeType) : Reachable s → Reachable (s.push v t).1
  | pop {s : ScopeStack} : Reachable s → s.names ≠ [] → Reachable s.pop.1

/-- The structure every stack has. -/
structure WF (s : ScopeStack) : Prop where
  inBounds : ∀ t l, s.level t = some l → l < s.names.length
  distinct : ∀ t t' l, s.level t = some l → s.level t' = some l → t = t'
  undef : s.level .UNDEFINED = none
  methodOnStage : ∀ l, s.level .METHOD = some l → ∃ k, s.level .STAGE = some k ∧ l = k + 1
  modelBeforeStage : ∀ a b, s.level .SPECTRUMMODEL = some a → s.level .STAGE = some b → a < b

/-! ## Lemmas -/

theorem push_cases (s : ScopeStack) (v : String) (t : ScopeType) :
    (s.push v t = (s, .throw .SCOPESTACK_ERROR)) ∨
    (s.push v t = ({ names := s.names ++ [v], level := s.level }, .ok ()) ∧ t = .UNDEFINED) ∨
    (s.push v t = (ScopeStack.mk (s.names ++ [v])
        (fun t' => if t' = t then some s.names.length else s.level t'), .ok ()) ∧
      t ≠ .UNDEFINED ∧ s.refused t = false ∧ s.level t = none) := by
  unfold push setTypeLevel
  by_cases h : t = .UNDEFINED
  · right; left; simp [h]
  · by_cases h2 : s.refused t = true
    · left; simp [h, h2]
    · by_cases h3 : s.hasType t = true
      · left; simp [h, h2, h3]
      · right; right
        refine ⟨by simp [h, h2, h3], h, by simpa using h2, ?_⟩
        simpa [hasType] using h3

theorem push_ok_iff (s : ScopeStack) (v : String) (t : ScopeType) (ht : t ≠ .UNDEFINED) :
    (s.push v t).2 = .ok () ↔ s.refused t = false ∧ s.hasType t = false := by
  unfold push setTypeLevel
  rw [if_neg ht]
  by_cases h1 : s.refused t = true
  · rw [if_pos h1]; simp [h1]
  · rw [if_neg h1]
    by_cases h2 : s.hasType t = true
    · rw [if_pos h2]; simp [h2]
    · rw [if_neg h2]; simp [h1, h2]

theorem wf_ofNames (names : List String) : WF (ofNames names) := by
  constructor <;> simp [ofNames]

theorem wf_push {s : ScopeStack} (h : WF s) (v : String) (t : ScopeType) : WF (s.push v t).1 := by
  rcases push_cases s v t with hp | ⟨hp, ht⟩ | ⟨hp, ht, hr, hn⟩
  · rw [hp]; exact h
  · rw [hp]
    refine ⟨?_, h.distinct, h.undef, h.methodOnStage, h.modelBeforeStage⟩
    intro t l hl
    have := h.inBounds t l hl
    simp; omega
  · rw [hp]
    constructor
    · intro t' l
      simp only
      split
      · rintro ⟨⟩; simp
      · intro hl; have := h.inBounds t' l hl; simp; omega
    · intro a b l
      simp only
      split <;> split
      · rename_i h1 h2; intros; rw [h1, h2]
      · rintro ⟨⟩ hb; have := h.inBounds b _ hb; omega
      · intro ha hb
        simp only [Option.some.injEq] at hb
        have := h.inBounds a _ ha; omega
      · exact h.distinct a b l
    · simp only; rw [if_neg (Ne.symm ht)]; exact h.undef
    · intro l
      simp only
      split
      · rename_i h1
        subst h1
        rintro ⟨⟩
        simp only [refused, Bool.or_eq_false_iff] at hr
        obtain ⟨h2, h3⟩ := hr
        cases hs : s.level .STAGE with
        | none => simp [hs] at h3
        | some k =>
          simp [hs] at h3
          exact ⟨k, by simp, by omega⟩
      · intro hl
        obtain ⟨k, hk, hlk⟩ := h.methodOnStage l hl
        refine ⟨k, ?_, hlk⟩
        split
        · rename_i h4; rw [← h4, hk] at hn; cases hn
        · exact hk
    · intro a b
      simp only
      split
      · rename_i h1
        subst h1
        simp [refused, hasType] at hr
        simp [hr]
      · split
        · rintro ha ⟨⟩; exact h.inBounds _ _ ha
        · exact h.modelBeforeStage a b

theorem getCurrentType_iff {s : ScopeStack} (hw : WF s) (t : ScopeType) (ht : t ≠ .UNDEFINED) :
    s.getCurrentType = t ↔ ∃ l, s.level t = some l ∧ l + 1 = s.names.length := by
  unfold getCurrentType
  cases hf : List.find? (fun t => match s.level t with | some l => l + 1 == s.names.length | none => false)
      [ScopeType.UNDEFINED, .SPECTRUMMODEL, .STAGE, .METHOD] with
  | none =>
    simp only
    rw [List.find?_eq_none] at hf
    have := hf t (by cases t <;> simp)
    constructor
    · intro h; exact absurd h.symm ht
    · rintro ⟨l, hl, e⟩; simp [hl, e] at this
  | some t' =>
    simp only
    have h1 := List.find?_some hf
    cases hl : s.level t' with
    | none => simp [hl] at h1
    | some l =>
      simp only [hl, beq_iff_eq] at h1
      constructor
      · rintro rfl; exact ⟨l, hl, h1⟩
      · rintro ⟨l', hl', e⟩
        have : l' = l := by omega
        subst this
        exact hw.distinct _ _ _ hl hl'

theorem resetTypeLevel_level (s : ScopeStack) (t : ScopeType) (l : Nat) :
    (resetTypeLevel s).level t = some l ↔ s.level t = some l ∧ l < s.names.length := by
  simp only [resetTypeLevel]
  cases h : s.level t with
  | none => simp
  | some k =>
    simp only
    split
    · simp; omega
    · simp; omega

theorem wf_pop {s : ScopeStack} (h : WF s) : WF s.pop.1 := by
  unfold pop
  split
  · exact h
  · rename_i hne
    simp only
    constructor
    · intro t l hl
      rw [resetTypeLevel_level] at hl
      exact hl.2
    · intro a b l ha hb
      rw [resetTypeLevel_level] at ha hb
      exact h.distinct a b l ha.1 hb.1
    · cases hu : (resetTypeLevel { s with names := s.names.dropLast }).level .UNDEFINED with
      | none => rfl
      | some l =>
        rw [resetTypeLevel_level] at hu
        rw [h.undef] at hu; simp at hu
    · intro l hl
      rw [resetTypeLevel_level] at hl
      obtain ⟨k, hk, e⟩ := h.methodOnStage l hl.1
      exact ⟨k, (resetTypeLevel_level _ _ _).2 ⟨hk, by have := hl.2; omega⟩, e⟩
    · intro a b ha hb
      rw [resetTypeLevel_level] at ha hb
      exact h.modelBeforeStage a b ha.1 hb.1

/-- **C14** Every reachable stack has the documented structure: each recorded level is a position of the
stack, different types have different levels, a METHOD lies directly above its STAGE, a SPECTRUMMODEL lies
below the STAGE, and UNDEFINED is never recorded. -/
theorem C14_wf {s : ScopeStack} (h : Reachable s) : WF s := by
  induction h with
  | init names => exact wf_ofNames names
  | push v t _ ih => exact wf_push ih v t
  | pop _ _ ih => exact wf_pop ih

/-- **C14** A push that throws leaves the stack as it was. -/
theorem C14_failed_push_unchanged (s s' : ScopeStack) (v : String) (t : ScopeType) (e : Err)
    (h : s.push v t = (s', .throw e)) : s' = s ∧ e = .SCOPESTACK_ERROR := by
  rcases push_cases s v t with hp | ⟨hp, _⟩ | ⟨hp, _⟩ <;> rw [hp] at h <;> simp_all

/-- **C14** A push always either succeeds, adding exactly the name on top, or throws. -/
theorem C14_push_outcome (s : ScopeStack) (v : String) (t : ScopeType) :
    ((s.push v t).2 = .ok () ∧ (s.push v t).1.names = s.names ++ [v]) ∨
      (s.push v t).2 = .throw .SCOPESTACK_ERROR := by
  rcases push_cases s v t with hp | ⟨hp, _⟩ | ⟨hp, _⟩ <;> rw [hp] <;> simp

/-- **C14** When a push is accepted, in words of the scopes already open: an untyped scope always; a
SPECTRUMMODEL if neither a SPECTRUMMODEL nor a STAGE is open; a STAGE if neither a STAGE nor a METHOD is
open; a METHOD if the innermost scope is a STAGE. -/
theorem C14_push_accepted {s : ScopeStack} (hs : Reachable s) (v : String) (t : ScopeType) :
    (s.push v t).2 = .ok () ↔
      match t with
      | .UNDEFINED => True
      | .SPECTRUMMODEL => s.hasType .SPECTRUMMODEL = false ∧ s.hasType .STAGE = false
      | .STAGE => s.hasType .STAGE = false ∧ s.hasType .METHOD = false
      | .METHOD => s.getCurrentType = .STAGE := by
  have hw := C14_wf hs
  cases t with
  | UNDEFINED => simp [push, setTypeLevel]
  | SPECTRUMMODEL => rw [push_ok_iff _ _ _ (by decide)]; simp only [refused]; tauto
  | STAGE => rw [push_ok_iff _ _ _ (by decide)]; simp only [refused]; tauto
  | METHOD =>
    rw [push_ok_iff _ _ _ (by decide)]
    rw [getCurrentType_iff hw _ (by decide)]
    simp only [refused, hasType]
    have hm := hw.methodOnStage
    have hb := hw.inBounds .METHOD
    cases h1 : s.level .STAGE with
    | none => simp
    | some k =>
      by_cases hk : k + 1 = s.names.length
      · have hM : s.level .METHOD = none := by
          cases h2 : s.level .METHOD with
          | none => rfl
          | some l =>
            obtain ⟨k', hk', e⟩ := hm l h2
            rw [h1] at hk'
            simp only [Option.some.injEq] at hk'
            have := hb l h2
            omega
        simp [hM, hk]
      · simp [hk]

/-- **C14** After an accepted push of a typed scope, the current type and the value of the type are the
ones pushed, and the other types are as before. -/
theorem C14_push_then_read {s s' : ScopeStack} (hs : Reachable s) (v : String) (t : ScopeType)
    (ht : t ≠ .UNDEFINED) (h : s.push v t = (s', .ok ())) :
    s'.getTypeValue t = .ok v ∧ s'.getCurrentType = t ∧
      ∀ t', t' ≠ t → s'.getTypeLevel t' = s.getTypeLevel t' := by
  have hw := C14_wf hs
  rcases push_cases s v t with hp | ⟨hp, h1⟩ | ⟨hp, _, _, hn⟩
  · rw [hp] at h; simp at h
  · exact absurd h1 ht
  · rw [hp] at h
    simp only [Prod.mk.injEq, and_true] at h
    subst h
    refine ⟨by simp [getTypeValue, getTypeLevel], ?_, ?_⟩
    · have hw' := wf_push hw v t
      rw [hp] at hw'
      rw [getCurrentType_iff hw' _ ht]
      exact ⟨s.names.length, by simp, by simp⟩
    · intro t' h'
      simp [getTypeLevel, h']

/-- On a reachable stack `get_type_value` never falls outside the stack: it fails only for a type that is
not open. -/
theorem C14_getTypeValue {s : ScopeStack} (hs : Reachable s) (t : ScopeType) (ht : s.hasType t = true) :
    ∃ (l : Nat) (h : l < s.names.length), s.getTypeLevel t = .ok l ∧ s.getTypeValue t = .ok s.names[l] := by
  unfold hasType at ht
  obtain ⟨l, hl⟩ := Option.isSome_iff_exists.1 ht
  have hb := (C14_wf hs).inBounds t l hl
  exact ⟨l, hb, by simp [getTypeLevel, hl], by simp [getTypeValue, getTypeLevel, hl, List.getElem?_eq_getElem hb]⟩

/-! ## Guards -/

theorem pop_of_push {s s' : ScopeStack} (hw : WF s) {v : String} {t : ScopeType}
    (h : s.push v t = (s', .ok ())) : s'.pop = (s, .ok ()) := by
  rcases push_cases s v t with hp | ⟨hp, _⟩ | ⟨hp, _, _, hn⟩
  · rw [hp] at h; simp at h
  · rw [hp] at h
    simp only [Prod.mk.injEq, and_true] at h
    subst h
    unfold pop
    simp only [List.append_eq_nil_iff, List.cons_ne_self, and_false, if_false, List.dropLast_concat]
    congr 1
    apply ext'
    · simp [resetTypeLevel]
    · intro x
      cases hx : s.level x with
      | none => simp [resetTypeLevel, hx]
      | some l => exact (resetTypeLevel_level _ _ _).2 ⟨hx, hw.inBounds x l hx⟩
  · rw [hp] at h
    simp only [Prod.mk.injEq, and_true] at h
    subst h
    unfold pop
    simp only [List.append_eq_nil_iff, List.cons_ne_self, and_false, if_false, List.dropLast_concat]
    congr 1
    apply ext'
    · simp [resetTypeLevel]
    · intro x
      by_cases hxt : x = t
      · subst hxt; simp [resetTypeLevel, hn]
      · cases hx : s.level x with
        | none => simp [resetTypeLevel, hxt, hx]
        | some l =>
          exact (resetTypeLevel_level _ _ _).2 ⟨by simp [hxt, hx], hw.inBounds x l hx⟩

theorem exec_restores (p : ScopeProg) : ∀ s : ScopeStack, WF s →
    (p.exec s).1 = s ∧ (p.exec s).2 ≠ .ub := by
  induction p with
  | skip => intro s _; simp [ScopeProg.exec]
  | fail e => intro s _; simp [ScopeProg.exec]
  | guard name t body ih =>
    intro s hw
    unfold ScopeProg.exec
    rcases hp : s.push name t with ⟨s1, r⟩
    cases r with
    | ok u =>
      cases u
      simp only
      have hw1 : WF s1 := by have := wf_push hw name t; rw [hp] at this; exact this
      obtain ⟨h1, h2⟩ := ih s1 hw1
      rcases hb : body.exec s1 with ⟨s2, r2⟩
      rw [hb] at h1 h2
      simp only at h1 h2
      subst h1
      have hpop := pop_of_push hw hp
      cases r2 with
      | ok u => simp [hpop]
      | throw e => simp [hpop]
      | ub => exact absurd rfl h2
    | throw e =>
      obtain ⟨h1, _⟩ := C14_failed_push_unchanged s s1 name t e hp
      simp [h1]
    | ub =>
      rcases push_cases s name t with h | ⟨h, _⟩ | ⟨h, _⟩ <;> rw [hp] at h <;> simp at h
  | seq p q ihp ihq =>
    intro s hw
    unfold ScopeProg.exec
    obtain ⟨h1, h2⟩ := ihp s hw
    rcases hb : p.exec s with ⟨s1, r⟩
    rw [hb] at h1 h2
    simp only at h1 h2
    subst h1
    cases r with
    | ok u => exact ihq s1 hw
    | throw e => simp
    | ub => exact absurd rfl h2
  | attempt p q ihp ihq =>
    intro s hw
    unfold ScopeProg.exec
    obtain ⟨h1, h2⟩ := ihp s hw
    rcases hb : p.exec s with ⟨s1, r⟩
    rw [hb] at h1 h2
    simp only at h1 h2
    subst h1
    cases r with
    | ok u => simp
    | throw e => exact ihq s1 hw
    | ub => exact absurd rfl h2
  | inspect f ih =>
    intro s hw
    unfold ScopeProg.exec
    exact ih s s hw

/-- **C15** Any code using only guards, in any nesting, with exceptions thrown and caught anywhere and
guards whose construction fails, leaves the names and type levels exactly as they were, and never pops an
empty stack. -/
theorem C15_guards_restore {s : ScopeStack} (hs : Reachable s) (p : ScopeProg) :
    (p.exec s).1 = s ∧ (p.exec s).2 ≠ .ub := exec_restores p s (C14_wf hs)

/-- Inside a guard the body sees the stack with the scope pushed. -/
theorem C15_body_sees_scope (s : ScopeStack) (v : String) (f : ScopeStack → ScopeProg)
    (e : Err) (hf : ∀ s', s'.names = s.names ++ [v] → f s' = .fail e) (hs : Reachable s) :
    (ScopeProg.guard v .UNDEFINED (.inspect f)).exec s = (s, .throw e) := by
  have h := (C15_guards_restore hs (.guard v .UNDEFINED (.inspect f)))
  have h2 : ((ScopeProg.guard v .UNDEFINED (.inspect f)).exec s).2 = .throw e := by
    unfold ScopeProg.exec
    have hp : s.push v .UNDEFINED = ({ s with names := s.names ++ [v] }, .ok ()) := by
      simp [push, setTypeLevel]
    rw [hp]
    have := pop_of_push (C14_wf hs) hp
    simp only [ScopeProg.exec]
    rw [hf _ rfl]
    simp only [ScopeProg.exec, this]
  exact Prod.ext h.1 h2

end ScopeStack

/-! ## Names -/

/-- Specification: the components of a dotted name. -/
def components (s : String) : List (List Char) := s.toList.splitOn '.'

/-- Specification: a name that is a single component. -/
def Simple (s : String) : Prop := '.' ∉ s.toList ∧ s ≠ ""

theorem components_simple {s : String} (h : Simple s) : components s = [s.toList] :=
  List.splitOn_eq_singleton h.1

theorem components_dot (a b : String) : components (a ++ "." ++ b) = components a ++ components b := by
  unfold components
  rw [String.toList_append, String.toList_append]
  have : ".".toList = ['.'] := by decide
  rw [this, List.append_assoc, List.splitOn_eq_splitOnP, List.splitOn_eq_splitOnP, List.splitOn_eq_splitOnP]
  exact List.splitOnP_append_cons _ _ (by simp)

theorem components_dotFold (f : String) (rest : List String) :
    components (dotFold f rest) = components f ++ (rest.map components).flatten := by
  unfold dotFold
  induction rest generalizing f with
  | nil => simp
  | cons a rest ih => simp only [List.foldl_cons, List.map_cons, List.flatten_cons]; rw [ih, components_dot]; simp

theorem components_simples {l : List String} (h : ∀ x ∈ l, Simple x) :
    (l.map components).flatten = l.map String.toList := by
  induction l with
  | nil => rfl
  | cons a l ih =>
    simp only [List.map_cons, List.flatten_cons]
    rw [components_simple (h a (by simp)), ih (fun x hx => h x (by simp [hx]))]
    rfl

theorem dotFold_toList_ne (f : String) (hf : f ≠ "") (rest : List String) : dotFold f rest ≠ "" := by
  unfold dotFold
  induction rest generalizing f with
  | nil => exact hf
  | cons a rest ih =>
    apply ih
    intro h
    have := congrArg String.length h
    simp at this

theorem appendName_of_ne {a b : String} (h : a ≠ "") : appendName a b = a ++ "." ++ b := by
  unfold appendName
  have : a.isEmpty = false := by
    rw [Bool.eq_false_iff]; intro h'; exact h (by simpa using h')
  simp [this]

theorem appendName_empty (b : String) : appendName "" b = b := by
  simp [appendName]

/-- Components of the name addressed by a list of scopes. -/
theorem components_append (l : List String) (hl : ∀ x ∈ l, Simple x) (n : String) :
    components (appendName (currentScopeName l) n) = l.map String.toList ++ components n := by
  cases l with
  | nil => simp [currentScopeName, appendName_empty]
  | cons f rest =>
    simp only [currentScopeName]
    rw [appendName_of_ne (dotFold_toList_ne f (hl f (by simp)).2 rest), components_dot, components_dotFold,
      components_simple (hl f (by simp)), components_simples (fun x hx => hl x (by simp [hx]))]
    simp

/-- **C16** The components of a scoped name are the scopes, outermost first, then those of the name. -/
theorem C16_scopedName_components (s : ScopeStack) (hs : ∀ x ∈ s.names, Simple x) (n : String) :
    components (scopedName s n) = s.names.map String.toList ++ components n :=
  components_append s.names hs n

theorem map_toList_injective : ∀ {a b : List String}, a.map String.toList = b.map String.toList → a = b := by
  intro a
  induction a with
  | nil => intro b h; cases b <;> simp_all
  | cons x a ih =>
    intro b h
    cases b with
    | nil => simp at h
    | cons y b =>
      simp only [List.map_cons, List.cons.injEq] at h
      rw [String.toList_inj.1 h.1, ih h.2]

/-- **C16** The same name in two different scopes has two different scoped names (scopes without dots). -/
theorem C16_scopedName_injective (s s' : ScopeStack) (hs : ∀ x ∈ s.names, Simple x)
    (hs' : ∀ x ∈ s'.names, Simple x) (n : String) (h : scopedName s n = scopedName s' n) :
    s.names = s'.names := by
  have h1 := C16_scopedName_components s hs n
  rw [h, C16_scopedName_components s' hs' n] at h1
  exact (map_toList_injective (List.append_cancel_right h1)).symm

/-- **C16** Simple names in one scope do not collide. -/
theorem C16_scopedName_injective_name (s : ScopeStack) (n n' : String)
    (h : scopedName s n = scopedName s n') : n = n' := by
  unfold scopedName appendName at h
  split at h
  · exact String.append_right_inj _ |>.1 h
  · exact String.append_right_inj _ |>.1 h

/-- **C16** Simple names in any two scopes: equal only if the scope and the name are equal. -/
theorem C16_scopedName_injective_both (s s' : ScopeStack) (hs : ∀ x ∈ s.names, Simple x)
    (hs' : ∀ x ∈ s'.names, Simple x) (n n' : String) (hn : Simple n) (hn' : Simple n')
    (h : scopedName s n = scopedName s' n') : s.names = s'.names ∧ n = n' := by
  have h1 := C16_scopedName_components s hs n
  rw [h, C16_scopedName_components s' hs' n', components_simple hn, components_simple hn'] at h1
  obtain ⟨h2, h3⟩ := List.append_inj' h1 rfl
  exact ⟨(map_toList_injective h2).symm, (String.toList_inj.1 (by simpa using h3)).symm⟩

/-- **C16** A name truncated at a depth is the scoped name for the first `depth` scopes; it throws
INTERNAL_ERROR exactly when the depth is negative or exceeds the stack, and never reads outside it. -/
theorem C16_scopedNameAt (s : ScopeStack) (n : String) (depth : Int) :
    scopedNameAt s n depth =
      if 0 ≤ depth ∧ depth ≤ s.names.length then
        .ok (scopedName { s with names := s.names.take depth.toNat } n)
      else .throw .INTERNAL_ERROR := by
  unfold scopedNameAt currentScopeNameAt scopedName
  by_cases h : depth < 0 ∨ (s.names.length : Int) < depth
  · rw [if_pos h, if_neg (by omega)]; rfl
  · rw [if_neg h, if_pos (show 0 ≤ depth ∧ depth ≤ (s.names.length : Int) by omega)]
    by_cases h0 : depth = 0
    · subst h0; simp [currentScopeName]
    · rw [if_neg h0]
      cases hn : s.names with
      | nil => simp [hn] at h; omega
      | cons f rest =>
        have : depth.toNat = (depth.toNat - 1) + 1 := by omega
        rw [this]
        simp [currentScopeName]

/-- **C16** A name truncated at a type uses exactly the scopes up to and including the one of that type. -/
theorem C16_scopedNameAtType {s : ScopeStack} (hs : ScopeStack.Reachable s) (n : String) (t : ScopeType)
    (l : Nat) (hl : s.level t = some l) :
    scopedNameAtType s n t = .ok (scopedName { s with names := s.names.take (l + 1) } n) := by
  have hb := (ScopeStack.C14_wf hs).inBounds t l hl
  unfold scopedNameAtType
  simp only [ScopeStack.getTypeLevel, hl, Res.bind_ok]
  rw [C16_scopedNameAt, if_pos (by omega)]
  have : ((l : Int) + 1).toNat = l + 1 := by omega
  rw [this]

/-! ## Concrete cases -/

/-- A galaxy scope, its redshift stage, and the method. -/
def exampleStack : ScopeStack :=
  ((((ScopeStack.ofNames []).push "galaxy" .SPECTRUMMODEL).1.push "redshiftSolver" .STAGE).1.push
    "lineModelSolve" .METHOD).1

example : ScopeStack.Reachable exampleStack := .push _ _ (.push _ _ (.push _ _ (.init [])))
example : exampleStack.names = ["galaxy", "redshiftSolver", "lineModelSolve"] ∧
    exampleStack.level .METHOD = some 2 := by decide
example : scopedName exampleStack "igmFit" = "galaxy.redshiftSolver.lineModelSolve.igmFit" := by decide
example : scopedNameAtType exampleStack "igmFit" .STAGE = .ok "galaxy.redshiftSolver.igmFit" := by decide
example : ∀ x ∈ exampleStack.names, Simple x := by unfold Simple; decide
example : (exampleStack.push "x" .STAGE).2 = .throw .SCOPESTACK_ERROR := by decide
/-- Without the hypothesis on the scopes names do collide: a scope named by the empty string. -/
example : scopedName (ScopeStack.ofNames [""]) "a" = scopedName (ScopeStack.ofNames []) "a" := by decide

end Amazed
