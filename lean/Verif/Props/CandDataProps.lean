import Verif.Model.CandData
import Verif.Props.ResultStoreProps
import Mathlib.Tactic.Common

set_option linter.unusedVariables false
set_option linter.unusedSectionVars false
set_option linter.unusedTactic false
set_option linter.unreachableTactic false
set_option linter.unnecessarySeqFocus false

/-! # C171: the datasets of the candidates in the result store -/

namespace Amazed
namespace CandData

variable {R : Type}

/-! ## Specification -/

/-- The names of the datasets of the candidates of a result; `none` for a result without candidate datasets. -/
def datasets : Obj R → Option (List String)
  | .plain _ => none
  | .pdfCands _ => none
  | .extrema _ _ _ => some ["model_parameters", "model", "PhotometricModel"]
  | .lineModel _ _ _ _ _ => some ["model_parameters", "line_mask", "continuum_polynom", "fitted_lines", "fp_fitted_lines", "model", "continuum", "PhotometricModel"]
  | .tplComb _ _ => some ["model_parameters", "modeltplCombination_parameters", "model"]

/-- The result `o` holds for the candidate of rank `r` and the dataset `d` the object `x` (null if it was not set). -/
def Holds : Obj R → Nat → String → Option (Leaf R) → Prop
  | .plain _, _, _, _ => False
  | .pdfCands _, _, _, _ => False
  | .extrema c m p, r, d, x =>
      (d = "model_parameters" ∧ ∃ v, c[r]? = some v ∧ x = some ⟨.extrema, v⟩) ∨ (d = "model" ∧ ∃ v, m[r]? = some v ∧ x = v.map (Leaf.mk .spectrum)) ∨
      (d = "PhotometricModel" ∧ ∃ v, p[r]? = some v ∧ x = v.map (Leaf.mk .photValues))
  | .lineModel c f m k p, r, d, x =>
      ((d = "model_parameters" ∨ d = "line_mask" ∨ d = "continuum_polynom") ∧ ∃ v, c[r]? = some v ∧ x = some ⟨.lineModel, v.1⟩) ∨
      ((d = "fitted_lines" ∨ d = "fp_fitted_lines") ∧ ∃ v, f[r]? = some v ∧ x = v.map (Leaf.mk .solution)) ∨
      (d = "model" ∧ ∃ v, m[r]? = some v ∧ x = v.map (Leaf.mk .spectrum)) ∨ (d = "continuum" ∧ ∃ v, k[r]? = some v ∧ x = v.map (Leaf.mk .spectrum)) ∨
      (d = "PhotometricModel" ∧ ∃ v, p[r]? = some v ∧ x = v.map (Leaf.mk .photValues))
  | .tplComb c m, r, d, x =>
      ((d = "model_parameters" ∨ d = "modeltplCombination_parameters") ∧ ∃ v, c[r]? = some v ∧ x = some ⟨.tplCombination, v⟩) ∨
      (d = "model" ∧ ∃ v, m[r]? = some v ∧ x = v.map (Leaf.mk .spectrum))

/-- The number of candidates. -/
def count : Obj R → Nat
  | .plain _ => 0
  | .pdfCands c => c.length
  | .extrema c _ _ => c.length
  | .lineModel c _ _ _ _ => c.length
  | .tplComb c _ => c.length

/-- The constructors give every vector the size of the list of candidates. -/
def Sized : Obj R → Prop
  | .plain _ => True
  | .pdfCands _ => True
  | .extrema c m p => m.length = c.length ∧ p.length = c.length
  | .lineModel c f m k p => f.length = c.length ∧ m.length = c.length ∧ k.length = c.length ∧ p.length = c.length
  | .tplComb c m => m.length = c.length

/-! ## Proofs -/

theorem idx_nat {α : Type} (l : List α) (r : Nat) : idx l (r : Int) = Res.at_ l r := by
  unfold idx
  rw [if_neg (by omega)]
  simp

theorem pick_ok {k : Kind} {l : List (Option R)} {r : Nat} {x : Option (Leaf R)} :
    pick k l (r : Int) = .ok x ↔ ∃ v, l[r]? = some v ∧ x = v.map (Leaf.mk k) := by
  unfold pick
  rw [idx_nat, Res.bind_eq_ok]
  constructor
  · rintro ⟨v, h1, h2⟩
    exact ⟨v, Res.at_eq_ok.1 h1, (Res.ok.inj h2).symm⟩
  · rintro ⟨v, h1, h2⟩
    exact ⟨v, Res.at_eq_ok.2 h1, by rw [h2]⟩

theorem pickC_ok {k : Kind} {l : List R} {r : Nat} {x : Option (Leaf R)} : pickC k l (r : Int) = .ok x ↔ ∃ v, l[r]? = some v ∧ x = some ⟨k, v⟩ := by
  unfold pickC
  rw [idx_nat, Res.bind_eq_ok]
  constructor
  · rintro ⟨v, h1, h2⟩
    exact ⟨v, Res.at_eq_ok.1 h1, (Res.ok.inj h2).symm⟩
  · rintro ⟨v, h1, h2⟩
    exact ⟨v, Res.at_eq_ok.2 h1, by rw [h2]⟩

theorem not_throw_pick {k : Kind} {l : List (Option R)} {r : Int} {e : Err} : pick k l r ≠ .throw e := by
  unfold pick idx
  by_cases hr : r < 0
  · rw [if_pos hr]; exact fun h => by cases h
  · rw [if_neg hr]
    unfold Res.at_
    cases l[r.toNat]? <;> exact fun h => by cases h

theorem not_throw_pickC {k : Kind} {l : List R} {r : Int} {e : Err} : pickC k l r ≠ .throw e := by
  unfold pickC idx
  by_cases hr : r < 0
  · rw [if_pos hr]; exact fun h => by cases h
  · rw [if_neg hr]
    unfold Res.at_
    cases l[r.toNat]? <;> exact fun h => by cases h

/-- **C171** The object read for a candidate is the one the result holds for it; only the datasets of the result can be read. -/
theorem C171_get (o : Obj R) (r : Nat) (d : String) :
    (∀ x, getCandidate o r d false = .ok x ↔ Holds o r d x) ∧
    (∀ rank : Int, getCandidate o rank d false = .throw .UNKNOWN_ATTRIBUTE ↔ ∀ ds, datasets o = some ds → d ∉ ds) ∧
    (∀ (rank : Int) (e : Err), getCandidate o rank d false = .throw e → e = .UNKNOWN_ATTRIBUTE) := by
  cases o with
  | plain l => exact ⟨fun x => ⟨fun h => (by cases h), fun h => h.elim⟩, fun k => ⟨fun _ ds h => (by cases h), fun _ => rfl⟩, fun k e h => (by cases h; rfl)⟩
  | pdfCands l => exact ⟨fun x => ⟨fun h => (by cases h), fun h => h.elim⟩, fun k => ⟨fun _ ds h => (by cases h), fun _ => rfl⟩, fun k e h => (by cases h; rfl)⟩
  | extrema c m p =>
    simp only [getCandidate, getE, datasets, Holds, Option.some.injEq, forall_eq']
    by_cases h1 : d = "model_parameters"
    · subst h1
      simp [pickC_ok, not_throw_pickC]
    by_cases h2 : d = "model"
    · subst h2
      simp [pick_ok, not_throw_pick]
    by_cases h3 : d = "PhotometricModel"
    · subst h3
      simp [pick_ok, not_throw_pick]
    simp [h1, h2, h3, eq_comm]
  | lineModel c f m k p =>
    simp only [getCandidate, getL, datasets, Holds, Option.some.injEq, forall_eq', Bool.false_eq_true, if_false]
    by_cases h1 : d = "model_parameters" ∨ d = "line_mask" ∨ d = "continuum_polynom"
    · rcases h1 with rfl | rfl | rfl <;> simp [pickC_ok, not_throw_pickC]
    by_cases h2 : d = "fitted_lines" ∨ d = "fp_fitted_lines"
    · rcases h2 with rfl | rfl <;> simp [pick_ok, not_throw_pick]
    by_cases h3 : d = "model"
    · subst h3
      simp [pick_ok, not_throw_pick]
    by_cases h4 : d = "continuum"
    · subst h4
      simp [pick_ok, not_throw_pick]
    by_cases h5 : d = "PhotometricModel"
    · subst h5
      simp [pick_ok, not_throw_pick]
    push Not at h1 h2
    simp [h1, h2, h3, h4, h5, eq_comm]
  | tplComb c m =>
    simp only [getCandidate, getT, datasets, Holds, Option.some.injEq, forall_eq']
    by_cases h1 : d = "model_parameters" ∨ d = "modeltplCombination_parameters"
    · rcases h1 with rfl | rfl <;> simp [pickC_ok, not_throw_pickC]
    by_cases h2 : d = "model"
    · subst h2
      simp [pick_ok, not_throw_pick]
    push Not at h1
    simp [h1, h2, eq_comm]

theorem find_some {s : ResultStore (Obj R)} {p : Path} : s.hasDataset p.spectrumModel p.stage p.method p.name = true ↔ ∃ o, find s p = .ok o := by
  unfold ResultStore.hasDataset find ResultStore.getGlobal4 ResultStore.getGlobal
  cases s.global (ResultStore.buildFullname p.spectrumModel p.stage p.method p.name) <;> simp

/-- **C171** The store announces a dataset for the candidates of a result exactly when it is one of the datasets of that result; nothing is announced for a result that is not
stored, and the question is refused for a result without candidates. -/
theorem C171_has (s : ResultStore (Obj R)) (p : Path) (d : String) :
    ((∀ o, find s p ≠ .ok o) → hasCandidateDataset s p d = .ok false) ∧
    (∀ o ds, find s p = .ok o → datasets o = some ds → hasCandidateDataset s p d = .ok (decide (d ∈ ds))) ∧
    (∀ o, find s p = .ok o → datasets o = none → hasCandidateDataset s p d = .throw .UNKNOWN_ATTRIBUTE) := by
  refine ⟨fun h => ?_, fun o ds h hd => ?_, fun o h hd => ?_⟩
  · unfold hasCandidateDataset
    rw [if_neg]
    intro hc
    obtain ⟨o, ho⟩ := find_some.1 hc
    exact h o ho
  · unfold hasCandidateDataset
    rw [if_pos (find_some.2 ⟨o, h⟩), h, Res.bind_ok]
    cases o <;> cases hd <;> simp only [hasDs, Res.ok.injEq] <;> rw [Bool.eq_iff_iff] <;> simp <;> tauto
  · unfold hasCandidateDataset
    rw [if_pos (find_some.2 ⟨o, h⟩), h, Res.bind_ok]
    cases o <;> first | rfl | cases hd

/-- Every object held under one dataset is of the same class. -/
theorem holds_kind {o : Obj R} {r r' : Nat} {d : String} {x y : Leaf R} (h : Holds o r d (some x)) (h' : Holds o r' d (some y)) : x.kind = y.kind := by
  have key : ∀ (k : Kind) (v : Option R) (z : Leaf R), some z = v.map (Leaf.mk k) → z.kind = k := by
    intro k v z h
    cases v with
    | none => cases h
    | some w => cases h; rfl
  cases o with
  | plain l => exact h.elim
  | pdfCands l => exact h.elim
  | extrema c m p =>
    rcases h with ⟨hd, v, -, hx⟩ | ⟨hd, v, -, hx⟩ | ⟨hd, v, -, hx⟩ <;> rcases h' with ⟨hd', w, -, hy⟩ | ⟨hd', w, -, hy⟩ | ⟨hd', w, -, hy⟩ <;>
      first
      | (subst hd; simp at hd'; done)
      | (rw [key _ _ _ hx, key _ _ _ hy]; done)
      | (cases hx; cases hy; rfl)
  | lineModel c f m k p =>
    rcases h with ⟨hd, v, -, hx⟩ | ⟨hd, v, -, hx⟩ | ⟨hd, v, -, hx⟩ | ⟨hd, v, -, hx⟩ | ⟨hd, v, -, hx⟩ <;>
    rcases h' with ⟨hd', w, -, hy⟩ | ⟨hd', w, -, hy⟩ | ⟨hd', w, -, hy⟩ | ⟨hd', w, -, hy⟩ | ⟨hd', w, -, hy⟩ <;>
      first
      | (cases hx; cases hy; rfl)
      | (rw [key _ _ _ hx, key _ _ _ hy]; done)
      | (exfalso; rcases hd with rfl | rfl | rfl <;> simp at hd'; done)
      | (exfalso; rcases hd with rfl | rfl <;> simp at hd'; done)
      | (exfalso; subst hd; simp at hd'; done)
  | tplComb c m =>
    rcases h with ⟨hd, v, -, hx⟩ | ⟨hd, v, -, hx⟩ <;> rcases h' with ⟨hd', w, -, hy⟩ | ⟨hd', w, -, hy⟩ <;>
      first
      | (cases hx; cases hy; rfl)
      | (rw [key _ _ _ hx, key _ _ _ hy]; done)
      | (exfalso; rcases hd with rfl | rfl <;> simp at hd'; done)
      | (exfalso; subst hd; simp at hd'; done)

theorem datasetType_eq (o : Obj R) (d : String) : datasetType o d = typeOf (getCandidate o 0 d false) := by
  cases o <;> rfl

/-- **C171** The type announced for a dataset of a result is that of every object held for it: the one of the first candidate. -/
theorem C171_type (s : ResultStore (Obj R)) (p : Path) (o : Obj R) (d : String) (ho : find s p = .ok o) :
    (∀ x : Leaf R, Holds o 0 d (some x) → candidateResultType s p d = .ok x.kind.typeName) ∧
    (∀ t, candidateResultType s p d = .ok t → ∀ (r : Nat) (x : Leaf R), Holds o r d (some x) → x.kind.typeName = t) ∧
    ((∀ ds, datasets o = some ds → d ∉ ds) → candidateResultType s p d = .throw .UNKNOWN_ATTRIBUTE) := by
  have e : candidateResultType s p d = typeOf (getCandidate o 0 d false) := by
    unfold candidateResultType
    rw [ho, Res.bind_ok, datasetType_eq]
  have g := C171_get o 0 d
  refine ⟨fun x hx => ?_, fun t ht r x hx => ?_, fun h => ?_⟩
  · rw [e]
    have := (g.1 _).2 hx
    rw [Int.natCast_zero] at this
    rw [this]
    rfl
  · rw [e] at ht
    cases hc : getCandidate o 0 d false with
    | ok y =>
      rw [hc] at ht
      cases y with
      | none => cases ht
      | some y =>
        have := (g.1 (some y)).1 hc
        rw [holds_kind hx this]
        exact Res.ok.inj ht
    | throw err => rw [hc] at ht; cases ht
    | ub => rw [hc] at ht; cases ht
  · rw [e, (g.2.1 0).2 h]
    rfl

/-- The getter for an object of a class. -/
def getter : Kind → ResultStore (Obj R) → Path → String → Int → Res (Option (Leaf R))
  | .lineModel, s, p, d, r => getLineModelResult s p d r false
  | k, s, p, d, r => getAs k s p d r

theorem isA_self (k : Kind) : k.isA k = true := by cases k <;> rfl

/-- **C171** The getter that belongs to the type of an object returns the object held for the candidate; an object that was not set is returned as null. -/
theorem C171_getter (s : ResultStore (Obj R)) (p : Path) (o : Obj R) (d : String) (r : Nat) (ho : find s p = .ok o) :
    (∀ x : Leaf R, Holds o r d (some x) → getter x.kind s p d r = .ok (some x)) ∧
    (∀ k, Holds o r d none → getter k s p d r = .ok none) := by
  have g := (C171_get o r d).1
  constructor
  · intro x hx
    have hc : cast x.kind (some x) = some x := by simp [cast, isA_self]
    have h := (g _).2 hx
    cases hk : x.kind <;> simp only [getter, getAs, getLineModelResult] <;> rw [ho, Res.bind_ok, h, Res.bind_ok] <;> rw [hk] at hc <;> rw [hc] <;> rfl
  · intro k hx
    have h := (g _).2 hx
    cases k <;> simp only [getter, getAs, getLineModelResult] <;> rw [ho, Res.bind_ok, h, Res.bind_ok] <;> rfl

/-- **C171** The getter of another class than that of the object never returns the object: the line model getter refuses it, the others return null. -/
theorem C171_wrong (s : ResultStore (Obj R)) (p : Path) (o : Obj R) (d : String) (r : Nat) (ho : find s p = .ok o) (x : Leaf R) (hx : Holds o r d (some x)) (k : Kind)
    (hk : x.kind.isA k = false) : (k = .lineModel → getter k s p d r = .throw .INTERNAL_ERROR) ∧ (k ≠ .lineModel → getter k s p d r = .ok none) := by
  have h := ((C171_get o r d).1 _).2 hx
  have hc : cast k (some x) = none := by simp [cast, hk]
  constructor
  · rintro rfl
    simp only [getter, getLineModelResult]
    rw [ho, Res.bind_ok, h, Res.bind_ok, hc]
    rfl
  · intro hne
    cases k <;> first | exact absurd rfl hne | (simp only [getter, getAs]; rw [ho, Res.bind_ok, h, Res.bind_ok, hc])

/-- **C171** The number of candidates is the length of the list of candidates of the extrema result. -/
theorem C171_count (s : ResultStore (Obj R)) (a b c : String) (o : Obj R) (ho : find s ⟨a, b, c, "extrema_results"⟩ = .ok o) :
    nbCandidates s a b c = .ok (count o) ∧
    (Sized o → ∀ ds, datasets o = some ds → ∀ d ∈ ds, ∀ r : Nat, r < count o ↔ ∃ x, Holds o r d x) := by
  constructor
  · unfold nbCandidates
    rw [ho, Res.bind_ok]
    cases o <;> rfl
  · intro hs ds hds d hd r
    have key : ∀ {α : Type} (l : List α) (n : Nat), l.length = n → (r < n ↔ ∃ v, l[r]? = some v) := by
      rintro α l n rfl
      constructor
      · intro h; exact ⟨l[r], List.getElem?_eq_getElem h⟩
      · rintro ⟨v, h⟩; exact (List.getElem?_eq_some_iff.1 h).1
    cases o with
    | plain l => cases hds
    | pdfCands l => cases hds
    | extrema cs m q =>
      cases hds
      obtain ⟨h1, h2⟩ := hs
      simp only [List.mem_cons, List.not_mem_nil, or_false] at hd
      rcases hd with rfl | rfl | rfl <;> simp only [count, Holds]
      · rw [key cs _ rfl]; simp
      · rw [key m _ h1]; simp
      · rw [key q _ h2]; simp
    | lineModel cs f m k q =>
      cases hds
      obtain ⟨h1, h2, h3, h4⟩ := hs
      simp only [List.mem_cons, List.not_mem_nil, or_false] at hd
      rcases hd with rfl | rfl | rfl | rfl | rfl | rfl | rfl | rfl <;> simp only [count, Holds]
      · rw [key cs _ rfl]; simp
      · rw [key cs _ rfl]; simp
      · rw [key cs _ rfl]; simp
      · rw [key f _ h1]; simp
      · rw [key f _ h1]; simp
      · rw [key m _ h2]; simp
      · rw [key k _ h3]; simp
      · rw [key q _ h4]; simp
    | tplComb cs m =>
      cases hds
      simp only [List.mem_cons, List.not_mem_nil, or_false] at hd
      rcases hd with rfl | rfl | rfl <;> simp only [count, Holds]
      · rw [key cs _ rfl]; simp
      · rw [key cs _ rfl]; simp
      · rw [key m _ hs]; simp

/-- **C171** The result of the first pass is read for the parameters only. -/
theorem C171_parent (s : ResultStore (Obj R)) (p : Path) (c : List (R × Option R)) (f m k q : List (Option R)) (d : String) (r : Nat) (ho : find s p = .ok (.lineModel c f m k q)) :
    (d = "model_parameters" → ∀ v, c[r]? = some v → getLineModelResult s p d r true = .ok (v.2.map (Leaf.mk .lineModel))) ∧
    (d ≠ "model_parameters" → getLineModelResult s p d r true = .throw .UNKNOWN_ATTRIBUTE) := by
  constructor
  · rintro rfl ⟨v, w⟩ hv
    unfold getLineModelResult
    rw [ho, Res.bind_ok]
    simp only [getCandidate, parent, if_true]
    rw [idx_nat, Res.at_eq_ok.2 hv]
    cases w <;> rfl
  · intro hd
    unfold getLineModelResult
    rw [ho, Res.bind_ok]
    simp only [getCandidate, parent, if_true, if_neg hd]
    rfl

/-- **C171** A dataset is announced even if there is no candidate or its object was not set, and then asking for its type dereferences an invalid pointer. -/
theorem C171_announced_ub (s : ResultStore (Obj R)) (p : Path) (o : Obj R) (ds : List String) (d : String) (ho : find s p = .ok o) (hs : Sized o)
    (hds : datasets o = some ds) (hd : d ∈ ds) (h : count o = 0 ∨ Holds o 0 d none) :
    hasCandidateDataset s p d = .ok true ∧ candidateResultType s p d = .ub := by
  constructor
  · rw [(C171_has s p d).2.1 o ds ho hds]
    simp [hd]
  · unfold candidateResultType
    rw [ho, Res.bind_ok, datasetType_eq]
    have g := C171_get o 0 d
    have hnot : getCandidate o 0 d false ≠ .throw .UNKNOWN_ATTRIBUTE := fun hc => (g.2.1 0).1 hc ds hds hd
    rcases h with h | h
    · cases hc : getCandidate o 0 d false with
      | ok y =>
        have hy := (g.1 y).1 hc
        exfalso
        cases o with
        | plain l => cases hds
        | pdfCands l => cases hds
        | extrema c m q =>
          obtain ⟨h1, h2⟩ := hs
          simp only [count] at h
          rcases hy with ⟨-, v, hv, -⟩ | ⟨-, v, hv, -⟩ | ⟨-, v, hv, -⟩ <;> have := (List.getElem?_eq_some_iff.1 hv).1 <;> omega
        | lineModel c f m k q =>
          obtain ⟨h1, h2, h3, h4⟩ := hs
          simp only [count] at h
          rcases hy with ⟨-, v, hv, -⟩ | ⟨-, v, hv, -⟩ | ⟨-, v, hv, -⟩ | ⟨-, v, hv, -⟩ | ⟨-, v, hv, -⟩ <;> have := (List.getElem?_eq_some_iff.1 hv).1 <;> omega
        | tplComb c m =>
          have h1 : m.length = c.length := hs
          simp only [count] at h
          rcases hy with ⟨-, v, hv, -⟩ | ⟨-, v, hv, -⟩ <;> have := (List.getElem?_eq_some_iff.1 hv).1 <;> omega
      | throw e =>
        have := g.2.2 0 e hc
        subst this
        exact absurd hc hnot
      | ub => rfl
    · have := (g.1 none).2 h
      rw [Int.natCast_zero] at this
      rw [this]
      rfl

/-- Two candidates of a line model, photometry not set. -/
def exObj : Obj Nat := .lineModel [(1, some 11), (2, none)] [some 21, some 22] [some 31, some 32] [some 41, some 42] [none, none]
def exStore : ResultStore (Obj Nat) := (({} : ResultStore (Obj Nat)).storeGlobal "galaxy.redshiftSolver.lineModelSolve" "extrema_results" exObj).1
def exPath : Path := ⟨"galaxy", "redshiftSolver", "lineModelSolve", "extrema_results"⟩

example : find exStore exPath = .ok exObj := rfl
example : Sized exObj ∧ nbCandidates exStore "galaxy" "redshiftSolver" "lineModelSolve" = .ok 2 ∧ hasCandidateDataset exStore exPath "fitted_lines" = .ok true ∧
    candidateResultType exStore exPath "fitted_lines" = .ok "CLineModelSolution" ∧ getAs .solution exStore exPath "fitted_lines" 1 = .ok (some ⟨.solution, 22⟩) ∧
    getLineModelResult exStore exPath "fitted_lines" 1 false = .throw .INTERNAL_ERROR ∧ getLineModelResult exStore exPath "model_parameters" 0 true = .ok (some ⟨.lineModel, 11⟩) ∧
    hasCandidateDataset exStore exPath "PhotometricModel" = .ok true ∧ candidateResultType exStore exPath "PhotometricModel" = .ub :=
  ⟨⟨rfl, rfl, rfl, rfl⟩, rfl, rfl, rfl, rfl, rfl, rfl, rfl, rfl⟩

end CandData
end Amazed
