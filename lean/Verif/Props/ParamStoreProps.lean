import Mathlib.Order.Basic
import Mathlib.Tactic.Tauto
import Verif.Model.ParamStore
import Verif.Props.ScopeProps

/-! # C18: parameter driven decisions -/

namespace Amazed

/-! ## The property tree -/
namespace PTree

/-- Specification: the value at a path given by its keys. -/
def value (t : PTree) (ks : List String) : Option String := (child? ks t).map data

theorem findChild_setChild (k k' : String) (t : PTree) (cs : List (String × PTree)) :
    findChild k' (setChild k t cs) = if k' = k then some t else findChild k' cs := by
  induction cs with
  | nil => simp only [setChild, findChild, eq_comm]
  | cons c cs ih =>
    obtain ⟨kc, tc⟩ := c
    simp only [setChild]
    by_cases h1 : kc = k
    · rw [if_pos h1]
      subst h1
      simp only [findChild]
      by_cases h2 : kc = k'
      · subst h2; simp
      · rw [if_neg h2, if_neg (Ne.symm h2), if_neg h2]
    · rw [if_neg h1]
      simp only [findChild]
      by_cases h2 : kc = k'
      · subst h2; simp [h1]
      · simp only [if_neg h2]; exact ih

/-- Reading after `put`: the addressed node has the new value, every other existing node keeps its own, and
the only nodes created are those on the path, with empty data. -/
theorem value_put (ks : List String) (v : String) (t : PTree) (ks' : List String) :
    value (put ks v t) ks' =
      if ks' = ks then some v
      else match value t ks' with
        | some d => some d
        | none => if ks' <+: ks then some "" else none := by
  induction ks generalizing t ks' with
  | nil =>
    obtain ⟨d, cs⟩ := t
    cases ks' with
    | nil => simp [put, value, child?, data]
    | cons k' ks' =>
      simp only [put, value, child?]
      rw [if_neg (by simp)]
      cases findChild k' cs with
      | none => simp
      | some t' => simp only; cases child? ks' t' <;> simp
  | cons k ks ih =>
    obtain ⟨d, cs⟩ := t
    cases ks' with
    | nil => simp [put, value, child?, data]
    | cons k' ks' =>
      simp only [put, value, child?]
      rw [findChild_setChild]
      by_cases hk : k' = k
      · subst hk
        rw [if_pos rfl]
        simp only
        cases hf : findChild k' cs with
        | some t' =>
          have := ih t' ks'
          simp only [value] at this
          simp only [this, List.cons.injEq, true_and, List.cons_prefix_cons]
        | none =>
          have := ih (.node "" []) ks'
          simp only [value] at this
          simp only [this, List.cons.injEq, true_and, List.cons_prefix_cons]
          cases ks' with
          | nil => simp [child?, data]
          | cons a b => simp [child?, findChild]
      · rw [if_neg hk, if_neg (by simp [hk])]
        cases hf : findChild k' cs with
        | some t' =>
          simp only
          cases child? ks' t' <;> simp [hk]
        | none => simp [List.cons_prefix_cons, hk]

theorem child?_putChild_same (ks : List String) (c t : PTree) : child? ks (putChild ks c t) = some c := by
  induction ks generalizing t with
  | nil => simp [putChild, child?]
  | cons k ks ih =>
    obtain ⟨d, cs⟩ := t
    simp only [putChild, child?, findChild_setChild, if_true]
    exact ih _

theorem components_map_ofList {s : String} (h : Simple s) : (components s).map String.ofList = [s] := by
  rw [components_simple h]; simp

/-- Keys of a dotted name whose last part is not empty. -/
theorem keys_dot (a b : String) (hb : (keys b) ≠ [])
    (hb' : ((components b).map String.ofList).getLast? ≠ some "") :
    keys (a ++ "." ++ b) = (components a).map String.ofList ++ keys b := by
  have h := components_dot a b
  have hne : (components b).map String.ofList ≠ [] := by
    simp [components, List.splitOn_ne_nil]
  have e1 : keys b = (components b).map String.ofList := by
    unfold keys; simp only; rw [if_neg]; rfl; exact hb'
  unfold keys
  simp only
  have e2 : ((a ++ "." ++ b).toList.splitOn '.').map String.ofList =
      (components a).map String.ofList ++ (components b).map String.ofList := by
    rw [← List.map_append, ← h]; rfl
  rw [e2, if_neg]
  · congr 1
    have := e1
    unfold keys at this
    exact this.symm
  · rw [List.getLast?_append]
    cases hl : ((components b).map String.ofList).getLast? with
    | none => exact absurd (List.getLast?_eq_none_iff.1 hl) hne
    | some x => rw [hl] at hb'; simpa using hb'

theorem keys_simple_dot {m b : String} (hm : Simple m) (hb : keys b ≠ [])
    (hb' : ((components b).map String.ofList).getLast? ≠ some "") : keys (m ++ "." ++ b) = m :: keys b := by
  rw [keys_dot m b hb hb', components_map_ofList hm]; rfl

end PTree

namespace ParamStore
variable {α : Type}
open PTree

/-! ## Specification: values by path -/

/-- The text of a parameter, given the keys leading to it. -/
def text (s : ParamStore α) (ks : List String) : Option String := s.tree.value ks

/-- The parameter at a path reads as `true`. -/
def IsTrue (s : ParamStore α) (ks : List String) : Prop := s.text ks = some "true" ∨ s.text ks = some "1"

/-! ## Lemmas -/

theorem data?_eq (s : ParamStore α) (n : String) : s.data? n = s.text (keys n) := rfl

theorem has_eq {T : Type} (s : ParamStore α) (rd : String → Option T) (n : String) :
    s.has rd n = (s.text (keys n)).isSome := by
  unfold has getOptional data? text value
  cases child? (keys n) s.tree with
  | none => rfl
  | some t => simp

theorem get_eq {T : Type} (s : ParamStore α) (rd : String → Option T) (n : String) :
    s.get rd n = match (s.text (keys n)).bind rd with | some v => .ok v | none => .throw .MISSING_PARAMETER := by
  unfold get getOptional
  rw [data?_eq]
  cases s.text (keys n) <;> rfl

theorem getString_eq (s : ParamStore α) (n : String) :
    s.get readString n = match s.text (keys n) with | some v => .ok v | none => .throw .MISSING_PARAMETER := by
  rw [get_eq]; cases s.text (keys n) <;> rfl

theorem boolOrFalse_eq (s : ParamStore α) (n : String) :
    s.boolOrFalse n = match s.text (keys n) with
      | none => .ok false
      | some d => (match readBool d with | some b => .ok b | none => .throw .MISSING_PARAMETER) := by
  unfold boolOrFalse
  rw [has_eq, get_eq]
  cases s.text (keys n) with
  | none => rfl
  | some d => simp only [Option.isSome_some, if_true, Option.bind_some]; cases readBool d <;> rfl

theorem readBool_true {d : String} : readBool d = some true ↔ d = "true" ∨ d = "1" := by
  unfold readBool; split
  · simp; tauto
  · split <;> simp <;> tauto

theorem boolOrFalse_true (s : ParamStore α) (n : String) :
    s.boolOrFalse n = .ok true ↔ s.IsTrue (keys n) := by
  rw [boolOrFalse_eq]
  unfold IsTrue
  cases h : s.text (keys n) with
  | none => simp
  | some d =>
    simp only [Option.some.injEq]
    rw [← readBool_true]
    cases readBool d with
    | none => simp
    | some b => simp

/-- Keys of `m.tail`. -/
theorem keys_m {m : String} (hm : Simple m) (n tail : String) (ks : List String) (hn : n = m ++ ("." ++ tail))
    (h : keys tail = ks ∧ ks ≠ [] ∧ ((components tail).map String.ofList).getLast? ≠ some "") :
    keys n = m :: ks := by
  rw [hn, ← String.append_assoc, keys_simple_dot hm (by rw [h.1]; exact h.2.1) h.2.2, h.1]

theorem k_method {m : String} (hm : Simple m) :
    keys (m ++ ".redshiftSolver.method") = [m, "redshiftSolver", "method"] :=
  keys_m hm _ "redshiftSolver.method" ["redshiftSolver", "method"] (by congr 1) (by decide)

theorem method_cases (s : ParamStore α) {m : String} (hm : Simple m) :
    (s.has readString (m ++ ".redshiftSolver.method") = (s.text [m, "redshiftSolver", "method"]).isSome) ∧
    (s.get readString (m ++ ".redshiftSolver.method") =
      match s.text [m, "redshiftSolver", "method"] with
      | some v => .ok v | none => .throw .MISSING_PARAMETER) := by
  rw [has_eq, getString_eq, k_method hm]; exact ⟨rfl, rfl⟩

/-- Text of the redshift method of a model. -/
def method (s : ParamStore α) (m : String) : Option String := s.text [m, "redshiftSolver", "method"]

/-! ## Theorems -/

/-- **C18** Extinction by dust is needed iff the method is template fitting or template combination with
`ismFit`, or the line model with `ismFit` of the continuum or `tplRatioIsmFit`. -/
theorem C18_ism (s : ParamStore α) {m : String} (hm : Simple m) (b : Bool) (h : s.hasTplIsmExtinction m = .ok b) :
    b = true ↔
      (s.method m = some "templateFittingSolve" ∧ s.IsTrue [m, "redshiftSolver", "templateFittingSolve", "ismFit"]) ∨
      (s.method m = some "tplCombinationSolve" ∧ s.IsTrue [m, "redshiftSolver", "tplCombinationSolve", "ismFit"]) ∨
      (s.method m = some "lineModelSolve" ∧
        (s.IsTrue [m, "redshiftSolver", "lineModelSolve", "lineModel", "continuumFit", "ismFit"] ∨
         s.IsTrue [m, "redshiftSolver", "lineModelSolve", "lineModel", "tplRatioIsmFit"])) := by
  unfold hasTplIsmExtinction at h
  rw [(method_cases s hm).1, (method_cases s hm).2] at h
  change _ ↔ (s.text _ = _ ∧ _) ∨ (s.text _ = _ ∧ _) ∨ (s.text _ = _ ∧ _)
  cases hmeth : s.text [m, "redshiftSolver", "method"] with
  | none => simp [hmeth] at h; simp [h]
  | some me =>
    simp only [hmeth, Option.isSome_some, Bool.not_true, Bool.false_eq_true, if_false, Res.bind_ok] at h
    by_cases h1 : me = "templateFittingSolve"
    · subst h1
      rw [if_pos (.inl rfl)] at h
      have hk := keys_m hm (m ++ ".redshiftSolver." ++ "templateFittingSolve" ++ ".ismFit")
        "redshiftSolver.templateFittingSolve.ismFit" ["redshiftSolver", "templateFittingSolve", "ismFit"] (by simp only [String.append_assoc]; congr 1) (by decide)
      have := boolOrFalse_true s (m ++ ".redshiftSolver." ++ "templateFittingSolve" ++ ".ismFit")
      rw [hk, h] at this
      simpa using this
    · by_cases h2 : me = "tplCombinationSolve"
      · subst h2
        rw [if_pos (.inr rfl)] at h
        have hk := keys_m hm (m ++ ".redshiftSolver." ++ "tplCombinationSolve" ++ ".ismFit")
          "redshiftSolver.tplCombinationSolve.ismFit" ["redshiftSolver", "tplCombinationSolve", "ismFit"] (by simp only [String.append_assoc]; congr 1) (by decide)
        have := boolOrFalse_true s (m ++ ".redshiftSolver." ++ "tplCombinationSolve" ++ ".ismFit")
        rw [hk, h] at this
        simpa using this
      · rw [if_neg (by tauto)] at h
        by_cases h3 : me = "lineModelSolve"
        · subst h3
          rw [if_pos rfl] at h
          have hk1 := keys_m hm (m ++ ".redshiftSolver." ++ "lineModelSolve" ++ ".lineModel.continuumFit.ismFit")
            "redshiftSolver.lineModelSolve.lineModel.continuumFit.ismFit" ["redshiftSolver", "lineModelSolve", "lineModel", "continuumFit", "ismFit"]
            (by simp only [String.append_assoc]; congr 1) (by decide)
          have hk2 := keys_m hm (m ++ ".redshiftSolver." ++ "lineModelSolve" ++ ".lineModel.tplRatioIsmFit")
            "redshiftSolver.lineModelSolve.lineModel.tplRatioIsmFit" ["redshiftSolver", "lineModelSolve", "lineModel", "tplRatioIsmFit"]
            (by simp only [String.append_assoc]; congr 1) (by decide)
          have t1 := boolOrFalse_true s (m ++ ".redshiftSolver." ++ "lineModelSolve" ++ ".lineModel.continuumFit.ismFit")
          have t2 := boolOrFalse_true s (m ++ ".redshiftSolver." ++ "lineModelSolve" ++ ".lineModel.tplRatioIsmFit")
          rw [hk1] at t1
          rw [hk2] at t2
          simp only [Res.bind_eq_ok] at h
          obtain ⟨x, hx, y, hy, hxy⟩ := h
          simp only [Res.pure_eq, Res.ok.injEq] at hxy
          rw [hx] at t1
          rw [hy] at t2
          simp only [Res.ok.injEq] at t1 t2
          subst hxy
          simp only [Bool.or_eq_true, t1, t2]
          simp
        · rw [if_neg h3] at h
          simp only [Res.pure_eq, Res.ok.injEq] at h
          subst h
          simp [h1, h2, h3]

/-- **C18** Log-rebinning (FFT processing) of a model is needed iff its method is template fitting with
`fftProcessing`, or the line model with `fftProcessing` of the continuum fit. -/
theorem C18_fft (s : ParamStore α) {m : String} (hm : Simple m) (b : Bool) (h : s.hasFFTProcessing m = .ok b) :
    b = true ↔
      (s.method m = some "templateFittingSolve" ∧
        s.IsTrue [m, "redshiftSolver", "templateFittingSolve", "fftProcessing"]) ∨
      (s.method m = some "lineModelSolve" ∧
        s.IsTrue [m, "redshiftSolver", "lineModelSolve", "lineModel", "continuumFit", "fftProcessing"]) := by
  unfold hasFFTProcessing at h
  rw [(method_cases s hm).1, (method_cases s hm).2] at h
  change _ ↔ (s.text _ = _ ∧ _) ∨ (s.text _ = _ ∧ _)
  cases hmeth : s.text [m, "redshiftSolver", "method"] with
  | none => simp [hmeth] at h; simp [h]
  | some me =>
    simp only [hmeth, Option.isSome_some, Bool.not_true, Bool.false_eq_true, if_false, Res.bind_ok] at h
    by_cases h1 : me = "templateFittingSolve"
    · subst h1
      rw [if_pos rfl] at h
      have hk := keys_m hm (m ++ ".redshiftSolver.templateFittingSolve.fftProcessing")
        "redshiftSolver.templateFittingSolve.fftProcessing" ["redshiftSolver", "templateFittingSolve", "fftProcessing"] (by congr 1) (by decide)
      have := boolOrFalse_true s (m ++ ".redshiftSolver.templateFittingSolve.fftProcessing")
      rw [hk, h] at this
      simpa using this
    · rw [if_neg h1] at h
      by_cases h3 : me = "lineModelSolve"
      · subst h3
        rw [if_pos rfl] at h
        have hk := keys_m hm (m ++ ".redshiftSolver.lineModelSolve.lineModel.continuumFit.fftProcessing")
          "redshiftSolver.lineModelSolve.lineModel.continuumFit.fftProcessing" ["redshiftSolver", "lineModelSolve", "lineModel", "continuumFit", "fftProcessing"] (by congr 1) (by decide)
        have := boolOrFalse_true s (m ++ ".redshiftSolver.lineModelSolve.lineModel.continuumFit.fftProcessing")
        rw [hk, h] at this
        simpa using this
      · rw [if_neg h3] at h
        simp only [Res.pure_eq, Res.ok.injEq] at h
        subst h
        simp [h1, h3]

/-- **C18** For the three template based methods, IGM extinction is needed iff the `igmFit` of the method is set. -/
theorem C18_igm (s : ParamStore α) {m : String} (hm : Simple m) (b : Bool) (h : s.hasTplIgmExtinction m = .ok b)
    (hmeth : s.method m = none ∨ s.method m = some "templateFittingSolve" ∨
      s.method m = some "tplCombinationSolve" ∨ s.method m = some "lineModelSolve") :
    b = true ↔
      (s.method m = some "templateFittingSolve" ∧ s.IsTrue [m, "redshiftSolver", "templateFittingSolve", "igmFit"]) ∨
      (s.method m = some "tplCombinationSolve" ∧ s.IsTrue [m, "redshiftSolver", "tplCombinationSolve", "igmFit"]) ∨
      (s.method m = some "lineModelSolve" ∧
        s.IsTrue [m, "redshiftSolver", "lineModelSolve", "lineModel", "continuumFit", "igmFit"]) := by
  unfold hasTplIgmExtinction at h
  rw [(method_cases s hm).1, (method_cases s hm).2] at h
  change s.text _ = _ ∨ s.text _ = _ ∨ s.text _ = _ ∨ s.text _ = _ at hmeth
  change _ ↔ (s.text _ = _ ∧ _) ∨ (s.text _ = _ ∧ _) ∨ (s.text _ = _ ∧ _)
  rcases hmeth with e | e | e | e
  · simp [e] at h; simp [e, h]
  · rw [e] at h
    simp at h
    have hk := keys_m hm (m ++ ".redshiftSolver." ++ "templateFittingSolve" ++ ".igmFit")
      "redshiftSolver.templateFittingSolve.igmFit" ["redshiftSolver", "templateFittingSolve", "igmFit"] (by simp only [String.append_assoc]; congr 1) (by decide)
    have := boolOrFalse_true s (m ++ ".redshiftSolver." ++ "templateFittingSolve" ++ ".igmFit")
    rw [hk, h] at this
    simpa [e] using this
  · rw [e] at h
    simp at h
    have hk := keys_m hm (m ++ ".redshiftSolver." ++ "tplCombinationSolve" ++ ".igmFit")
      "redshiftSolver.tplCombinationSolve.igmFit" ["redshiftSolver", "tplCombinationSolve", "igmFit"] (by simp only [String.append_assoc]; congr 1) (by decide)
    have := boolOrFalse_true s (m ++ ".redshiftSolver." ++ "tplCombinationSolve" ++ ".igmFit")
    rw [hk, h] at this
    simpa [e] using this
  · rw [e] at h
    simp at h
    have hk := keys_m hm (m ++ ".redshiftSolver." ++ "lineModelSolve" ++ ".lineModel.continuumFit.igmFit")
      "redshiftSolver.lineModelSolve.lineModel.continuumFit.igmFit" ["redshiftSolver", "lineModelSolve", "lineModel", "continuumFit", "igmFit"] (by simp only [String.append_assoc]; congr 1) (by decide)
    have := boolOrFalse_true s (m ++ ".redshiftSolver." ++ "lineModelSolve" ++ ".lineModel.continuumFit.igmFit")
    rw [hk, h] at this
    simpa [e] using this

/-- **C18** Templates are to be orthogonalised iff the line model is used with a fitted template continuum. -/
theorem C18_orthogonalize (s : ParamStore α) {m : String} (hm : Simple m) (b : Bool)
    (h : s.hasToOrthogonalize m = .ok b) :
    b = true ↔ s.method m = some "lineModelSolve" ∧
      (s.text [m, "redshiftSolver", "lineModelSolve", "lineModel", "continuumComponent"] = some "tplFit" ∨
       s.text [m, "redshiftSolver", "lineModelSolve", "lineModel", "continuumComponent"] = some "tplFitAuto") := by
  unfold hasToOrthogonalize at h
  rw [(method_cases s hm).1, (method_cases s hm).2] at h
  change _ ↔ s.text _ = _ ∧ _
  cases hmeth : s.text [m, "redshiftSolver", "method"] with
  | none => simp [hmeth] at h; simp [h]
  | some me =>
    simp only [hmeth, Option.isSome_some, if_true, Res.bind_ok, Res.pure_eq] at h
    by_cases h1 : me = "lineModelSolve"
    · subst h1
      simp only [decide_true, if_true, Res.bind_eq_ok] at h
      obtain ⟨_, _, cc, hcc, hb⟩ := h
      have hk := keys_m hm (m ++ ".redshiftSolver.lineModelSolve.lineModel.continuumComponent")
        "redshiftSolver.lineModelSolve.lineModel.continuumComponent" ["redshiftSolver", "lineModelSolve", "lineModel", "continuumComponent"] (by congr 1) (by decide)
      rw [getString_eq, hk] at hcc
      cases ht : s.text [m, "redshiftSolver", "lineModelSolve", "lineModel", "continuumComponent"] with
      | none => simp [ht] at hcc
      | some c =>
        simp only [ht, Res.ok.injEq] at hcc
        subst hcc
        simp only [Res.ok.injEq] at hb
        simp [← hb]
    · simp [h1] at h
      simp [h, h1]

/-- **C18** Orthogonalisation is enabled only when it is needed. -/
theorem C18_enable_implies_needed (s : ParamStore α) (m : String) (h : s.enableOrtho m = .ok true) :
    s.hasToOrthogonalize m = .ok true := by
  unfold enableOrtho at h
  rw [Res.bind_eq_ok] at h
  obtain ⟨e, he, h2⟩ := h
  cases e with
  | true => exact he
  | false => simp at h2

/-- **C18** ... and then iff the line support is not ignored. -/
theorem C18_enable (s : ParamStore α) {m : String} (hm : Simple m) (b : Bool) (h : s.enableOrtho m = .ok b)
    (hn : s.hasToOrthogonalize m = .ok true) :
    b = true ↔ ¬ s.IsTrue [m, "redshiftSolver", "lineModelSolve", "lineModel", "continuumFit", "ignoreLineSupport"] := by
  unfold enableOrtho at h
  rw [hn] at h
  simp only [Res.bind_ok, if_true, Res.bind_eq_ok] at h
  obtain ⟨i, hi, hb⟩ := h
  have hk := keys_m hm (m ++ ".redshiftSolver.lineModelSolve.lineModel.continuumFit.ignoreLineSupport")
    "redshiftSolver.lineModelSolve.lineModel.continuumFit.ignoreLineSupport" ["redshiftSolver", "lineModelSolve", "lineModel", "continuumFit", "ignoreLineSupport"] (by congr 1) (by decide)
  rw [get_eq, hk] at hi
  unfold IsTrue
  cases ht : s.text [m, "redshiftSolver", "lineModelSolve", "lineModel", "continuumFit", "ignoreLineSupport"] with
  | none => simp [ht] at hi
  | some d =>
    simp only [ht, Option.bind_some, Option.some.injEq] at hi ⊢
    rw [← readBool_true]
    cases hr : readBool d with
    | none => simp [hr] at hi
    | some x =>
      simp only [hr, Res.ok.injEq] at hi
      subst hi
      simp only [Res.pure_eq, Res.ok.injEq] at hb
      subst hb
      cases x <;> simp

/-- **C18** The FFT decision of a model depends only on the parameters under that model's name. -/
theorem C18_fft_frame (s s' : ParamStore α) {m : String} (hm : Simple m)
    (h : ∀ ks, s.text (m :: ks) = s'.text (m :: ks)) : s.hasFFTProcessing m = s'.hasFFTProcessing m := by
  have k1 := keys_m hm (m ++ ".redshiftSolver.templateFittingSolve.fftProcessing")
    "redshiftSolver.templateFittingSolve.fftProcessing" ["redshiftSolver", "templateFittingSolve", "fftProcessing"] (by congr 1) (by decide)
  have k2 := keys_m hm (m ++ ".redshiftSolver.lineModelSolve.lineModel.continuumFit.fftProcessing")
    "redshiftSolver.lineModelSolve.lineModel.continuumFit.fftProcessing" ["redshiftSolver", "lineModelSolve", "lineModel", "continuumFit", "fftProcessing"] (by congr 1) (by decide)
  unfold hasFFTProcessing
  simp only [has_eq, getString_eq, boolOrFalse_eq, k_method hm, k1, k2, h]

/-- **C18** The models to log-rebin are exactly those that need it, each with its own flag, and the overall flag is
set iff one of them needs it. -/
theorem C18_hasToLogRebin (s : ParamStore α) (cats : List String) (u : Bool) (l : List (String × Bool))
    (h : s.hasToLogRebin cats = .ok (u, l)) :
    l.map Prod.fst = cats ∧ (∀ c f, (c, f) ∈ l → s.hasFFTProcessing c = .ok f) ∧
      (u = true ↔ ∃ c ∈ cats, s.hasFFTProcessing c = .ok true) := by
  induction cats generalizing u l with
  | nil =>
    simp only [hasToLogRebin, Res.ok.injEq, Prod.mk.injEq] at h
    obtain ⟨rfl, rfl⟩ := h
    simp
  | cons c cs ih =>
    simp only [hasToLogRebin, Res.bind_eq_ok] at h
    obtain ⟨f, hf, ⟨u', l'⟩, hr, he⟩ := h
    simp only [Res.pure_eq, Res.ok.injEq, Prod.mk.injEq] at he
    obtain ⟨rfl, rfl⟩ := he
    obtain ⟨h1, h2, h3⟩ := ih u' l' hr
    refine ⟨by simp [h1], ?_, ?_⟩
    · intro c' f' hc
      simp only [List.mem_cons, Prod.mk.injEq] at hc
      rcases hc with ⟨rfl, rfl⟩ | hc
      · exact hf
      · exact h2 _ _ hc
    · simp only [Bool.or_eq_true, h3, List.mem_cons, exists_eq_or_imp, hf, Res.ok.injEq]

/-- **C18** The common step is the smallest of the steps of the models that need log-rebinning (or the starting
maximum if none does): it is not larger than any of them and it is one of them. -/
theorem C18_minZStep [LinearOrder α] (s : ParamStore α) (big v : α) (l : List (String × Bool))
    (h : s.minZStep big l = .ok v) :
    v ≤ big ∧
    (∀ c, (c, true) ∈ l → ∃ st, s.get s.readNum (c ++ ".redshiftStep") = .ok st ∧ v ≤ st) ∧
    (v = big ∨ ∃ c, (c, true) ∈ l ∧ s.get s.readNum (c ++ ".redshiftStep") = .ok v) := by
  unfold minZStep at h
  induction l generalizing big with
  | nil =>
    simp only [minZStepLoop, Res.ok.injEq] at h
    subst h; simp
  | cons cf l ih =>
    obtain ⟨c, f⟩ := cf
    cases f with
    | false =>
      simp only [minZStepLoop] at h
      obtain ⟨h1, h2, h3⟩ := ih big h
      refine ⟨h1, ?_, ?_⟩
      · intro c' hc; simp at hc; exact h2 c' hc
      · rcases h3 with h3 | ⟨c', hc', h3⟩
        · exact .inl h3
        · exact .inr ⟨c', by simp [hc'], h3⟩
    | true =>
      simp only [minZStepLoop, Res.bind_eq_ok] at h
      obtain ⟨st, hst, h⟩ := h
      obtain ⟨h1, h2, h3⟩ := ih _ h
      have hle : (if big < st then big else st) ≤ big ∧ (if big < st then big else st) ≤ st := by
        split
        · exact ⟨le_refl _, le_of_lt ‹_›⟩
        · exact ⟨not_lt.1 ‹_›, le_refl _⟩
      refine ⟨le_trans h1 hle.1, ?_, ?_⟩
      · intro c' hc
        simp only [List.mem_cons, Prod.mk.injEq, and_true] at hc
        rcases hc with rfl | hc
        · exact ⟨st, hst, le_trans h1 hle.2⟩
        · exact h2 c' hc
      · rcases h3 with h3 | ⟨c', hc', h3⟩
        · split at h3
          · exact .inl h3
          · exact .inr ⟨c, by simp, by rw [h3]; exact hst⟩
        · exact .inr ⟨c', by simp [hc'], h3⟩

/-- **C18** A string set under a name is read back, and setting it does not change what any other existing
parameter reads. -/
theorem C18_set_get (s : ParamStore α) (n v : String) :
    (s.setString n v).get readString n = .ok v ∧
    ∀ n', keys n' ≠ keys n → s.text (keys n') ≠ none →
      (s.setString n v).get readString n' = s.get readString n' := by
  refine ⟨?_, ?_⟩
  · rw [getString_eq]
    simp only [text, setString, value_put, if_true]
  · intro n' hk hp
    rw [getString_eq, getString_eq]
    simp only [text, setString, value_put, if_neg hk]
    simp only [text] at hp
    cases h : s.tree.value (keys n') with
    | none => exact absurd h hp
    | some d => rfl

/-- **C18** The same for a boolean. -/
theorem C18_setBool_get (s : ParamStore α) (n : String) (v : Bool) :
    (s.setBool n v).get readBool n = .ok v := by
  rw [get_eq]
  simp only [setBool, text, setString, value_put, if_true, Option.bind_some]
  cases v <;> simp [readBool]

/-- **C18** The same for a list of strings. -/
theorem C18_setList_get (s : ParamStore α) (n : String) (v : List String) :
    (s.setStringList n v).getList readString n = .ok v := by
  unfold getList setStringList
  simp only [child?_putChild_same, children]
  have : (v.map (fun x => (("" : String), PTree.node x []))).mapM (fun c => readString c.2.data) = some v := by
    induction v with
    | nil => rfl
    | cons a v ih => simp only [List.map_cons, List.mapM_cons, ih]; rfl
  rw [this]

/-- **C18** A scoped value is the one stored under the scoped name, never the global one. -/
theorem C18_scoped (s : ParamStore α) {T : Type} (rd : String → Option T) (sc : ScopeStack) (n : String) :
    s.getScoped sc rd n =
      match (s.text (keys (scopedName sc n))).bind rd with
      | some v => .ok v
      | none => .throw .MISSING_PARAMETER := by
  unfold getScoped
  rw [has_eq, get_eq]
  cases s.text (keys (scopedName sc n)) with
  | none => simp
  | some x => simp only [Option.isSome_some, if_true]

/-- **C18** A list is read in the current scope when the scoped name exists, otherwise globally. -/
theorem C18_listScoped (s : ParamStore α) {T : Type} (rd : String → Option T) (sc : ScopeStack) (n : String) :
    s.getListScoped sc rd n =
      if s.text (keys (scopedName sc n)) = none then s.getList rd n else s.getList rd (scopedName sc n) := by
  unfold getListScoped
  rw [has_eq]
  cases s.text (keys (scopedName sc n)) <;> simp

/-- Reading a range whose stored list has fewer than two values is out of bounds, otherwise it gives the first
two values. -/
theorem C18_range (s : ParamStore α) (n : String) (l : List α) (h : s.getList s.readNum n = .ok l) :
    s.getRange n = (match (generalizing := false) l with
      | a :: b :: _ => .ok (a, b)
      | _ => .ub) := by
  unfold getRange
  simp only [h, Res.bind_ok]
  match l with
  | [] => rfl
  | [a] => rfl
  | a :: b :: l => rfl

/-! ## Concrete cases -/

/-- A tree with a galaxy model using template fitting with FFT. -/
def exampleTree : PTree :=
  .node "" [("galaxy", .node "" [("redshiftSolver", .node "" [("method", .node "templateFittingSolve" []),
    ("templateFittingSolve", .node "" [("fftProcessing", .node "true" []), ("ismFit", .node "false" [])])]),
    ("redshiftStep", .node "1" [])])]

/-- The store of that tree, with naturals as numbers. -/
def exampleStore : ParamStore Nat := { tree := exampleTree, readNum := String.toNat? }

example : Simple "galaxy" := by unfold Simple; decide
example : exampleStore.hasFFTProcessing "galaxy" = .ok true := by decide
example : exampleStore.hasTplIsmExtinction "galaxy" = .ok false := by decide
example : exampleStore.hasToOrthogonalize "galaxy" = .ok false := by decide
example : exampleStore.hasToLogRebin ["galaxy", "star"] = .ok (true, [("galaxy", true), ("star", false)]) := by decide

/-- A method outside the three template methods whose own section exists makes the IGM query fail: the section
itself is read as a boolean. -/
theorem C18_igm_other_method_throws :
    (ParamStore.mk (α := Nat) (.node "" [("g", .node "" [("redshiftSolver", .node ""
      [("method", .node "otherSolve" []), ("otherSolve", .node "" [("x", .node "1" [])])])])])
      (fun _ => none)).hasTplIgmExtinction "g" = .throw .MISSING_PARAMETER := by decide

end ParamStore
end Amazed
