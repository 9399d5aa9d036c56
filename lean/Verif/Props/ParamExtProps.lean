import Verif.Model.ParamExt
import Verif.Props.ParamV2Props

/-! # C215: the extension of the parameters -/

set_option linter.unusedVariables false
set_option linter.unusedSimpArgs false
namespace Amazed
namespace ParamExt

open ParamV2 (at_)

/-- Specification: no path continues the other. -/
def Apart (a b : List String) : Prop := ¬ a <+: b ∧ ¬ b <+: a

theorem at_cons (k : String) (ks : List String) (d : Dict) : at_ (k :: ks) (.obj d) = (Dict.get k d).bind (at_ ks) := rfl

theorem at_nil_dict : ∀ q : List String, q ≠ [] → at_ q (.obj []) = none := by
  intro q h
  cases q with
  | nil => exact absurd rfl h
  | cons a r => rfl

theorem at_null : ∀ q : List String, q ≠ [] → at_ q .null = none := by
  intro q h
  cases q with
  | nil => exact absurd rfl h
  | cons a r => rfl

theorem putAt_cons {k k' : String} {ks : List String} {v : J} {d e : Dict} (h : putAt (k :: k' :: ks) v d = some e) :
    ∃ s s', putAt (k' :: ks) v s = some s' ∧ e = Dict.put k (.obj s') d ∧
      ((Dict.get k d = some (.obj s)) ∨ (s = [] ∧ (Dict.get k d = none ∨ Dict.get k d = some .null))) := by
  unfold putAt at h
  rw [if_neg (by simp)] at h
  cases hg : Dict.get k d with
  | none =>
    rw [hg] at h
    obtain ⟨s', h1, h2⟩ := Option.map_eq_some_iff.1 h
    exact ⟨[], s', h1, h2.symm, Or.inr ⟨rfl, Or.inl rfl⟩⟩
  | some j =>
    rw [hg] at h
    cases j with
    | obj s =>
      obtain ⟨s', h1, h2⟩ := Option.map_eq_some_iff.1 h
      exact ⟨s, s', h1, h2.symm, Or.inl rfl⟩
    | null =>
      obtain ⟨s', h1, h2⟩ := Option.map_eq_some_iff.1 h
      exact ⟨[], s', h1, h2.symm, Or.inr ⟨rfl, Or.inr rfl⟩⟩
    | bool b => cases h
    | num q => cases h
    | str s => cases h
    | arr l => cases h

theorem putAt_same : ∀ (ks : List String) {v : J} {d e : Dict}, putAt ks v d = some e → at_ ks (.obj e) = some v := by
  intro ks
  induction ks with
  | nil => intro v d e h; cases h
  | cons k r ih =>
    intro v d e h
    cases r with
    | nil =>
      have : putAt [k] v d = some (Dict.put k v d) := if_pos rfl
      rw [this] at h; cases h
      rw [at_cons, Dict.get_put, if_pos rfl]; rfl
    | cons k' r =>
      obtain ⟨s, s', h1, rfl, _⟩ := putAt_cons h
      rw [at_cons, Dict.get_put, if_pos rfl]
      exact ih h1

theorem putAt_other : ∀ (ks : List String) {v : J} {d e : Dict} (q : List String), putAt ks v d = some e → Apart ks q →
    at_ q (.obj e) = at_ q (.obj d) := by
  intro ks
  induction ks with
  | nil => intro v d e q h; cases h
  | cons k r ih =>
    intro v d e q h hq
    cases q with
    | nil => exact absurd (List.nil_prefix) hq.2
    | cons a q =>
      cases r with
      | nil =>
        have : putAt [k] v d = some (Dict.put k v d) := if_pos rfl
        rw [this] at h; cases h
        have hne : a ≠ k := by
          rintro rfl
          exact hq.1 (List.cons_prefix_cons.2 ⟨rfl, List.nil_prefix⟩)
        rw [at_cons, at_cons, Dict.get_put, if_neg (fun h => hne h.symm)]
      | cons k' r =>
        obtain ⟨s, s', h1, rfl, hs⟩ := putAt_cons h
        rw [at_cons, at_cons, Dict.get_put]
        by_cases hk : a = k
        · subst hk
          have hr : Apart (k' :: r) q :=
            ⟨fun h => hq.1 (List.cons_prefix_cons.2 ⟨rfl, h⟩), fun h => hq.2 (List.cons_prefix_cons.2 ⟨rfl, h⟩)⟩
          have hqn : q ≠ [] := by rintro rfl; exact hr.2 List.nil_prefix
          rw [if_pos rfl]
          have := ih q h1 hr
          rcases hs with hs | ⟨rfl, hs | hs⟩
          · rw [hs]; exact this
          · rw [hs]
            show at_ q (.obj s') = none
            rw [this, at_nil_dict q hqn]
          · rw [hs]
            show at_ q (.obj s') = at_ q .null
            rw [this, at_nil_dict q hqn, at_null q hqn]
        · rw [if_neg (fun h => hk h.symm)]

theorem run_other : ∀ (ws : List Write) {d e : Dict} (q : List String), run ws d = some e → (∀ w ∈ ws, Apart w.1 q) →
    at_ q (.obj e) = at_ q (.obj d) := by
  intro ws
  induction ws with
  | nil => intro d e q h _; cases h; rfl
  | cons w r ih =>
    intro d e q h hq
    obtain ⟨d', h1, h2⟩ := Option.bind_eq_some_iff.1 h
    rw [ih q h2 fun x hx => hq x (List.mem_cons_of_mem _ hx), putAt_other w.1 q h1 (hq w List.mem_cons_self)]

/-- A writing that gives the value `x` at the path `t`. -/
def Gives (t : List String) (x : J) (w : Write) : Prop := ∃ q, t = w.1 ++ q ∧ at_ q w.2 = some x

theorem run_val : ∀ (ws : List Write) {d e : Dict} (t : List String) (x : J), run ws d = some e →
    (∀ w ∈ ws, Apart w.1 t ∨ Gives t x w) → ((∃ w ∈ ws, Gives t x w) ∨ at_ t (.obj d) = some x) → at_ t (.obj e) = some x := by
  intro ws
  induction ws with
  | nil =>
    intro d e t x h _ h2
    cases h
    rcases h2 with ⟨w, hw, _⟩ | h2
    · exact absurd hw (by simp)
    · exact h2
  | cons w r ih =>
    intro d e t x h hw h2
    obtain ⟨d', h1, h3⟩ := Option.bind_eq_some_iff.1 h
    refine ih t x h3 (fun y hy => hw y (List.mem_cons_of_mem _ hy)) ?_
    by_cases hg : Gives t x w
    · right
      obtain ⟨q, rfl, hq⟩ := hg
      rw [ParamV2.at_append, putAt_same w.1 h1]
      exact hq
    · rcases h2 with ⟨y, hy, hyg⟩ | h2
      · rcases List.mem_cons.1 hy with rfl | hy
        · exact absurd hyg hg
        · exact Or.inl ⟨y, hy, hyg⟩
      · right
        rcases hw w List.mem_cons_self with ha | hg'
        · rw [putAt_other w.1 t h1 ha]; exact h2
        · exact absurd hg' hg

/-- Specification: the places the extension may write, by path. -/
def Place (p : Dict) (q : List String) : Prop :=
  q = ["continuumRemoval"] ∨ q = ["templateCatalog", "continuumRemoval"] ∨
  (∃ s, (s = ["continuumRemoval"] ∨ s = ["templateCatalog", "continuumRemoval"]) ∧
    (q = s ++ ["medianKernelWidth"] ∨ q = s ++ ["medianEvenReflection"])) ∨
  ∃ m ∈ ParamV2.models p, q = [m, "redshiftSolver", "lineModelSolve", "lineModel", "continuumReestimation"] ∨
    q = [m, "redshiftSolver", "lineModelSolve", "lineModel", "useLogLambdaSampling"]

theorem mem_writes {p : Dict} {w : Write} (h : w ∈ writes p) :
    (rootNeed p = false ∧ w = (removal, defaultRemoval)) ∨ (tplNeed p = false ∧ w = (tplRemoval, defaultRemoval)) ∨
    (∃ m ∈ ParamV2.models p, reestNeed p m = false ∧ w = (lineModel m ++ ["continuumReestimation"], .str "no")) ∨
    (∃ m ∈ ParamV2.models p, logNeed p m = false ∧ w = (lineModel m ++ ["useLogLambdaSampling"], .bool false)) ∨
    (∃ s, (s = removal ∨ s = tplRemoval) ∧ kernelNeed p s = false ∧
      (w = (s ++ ["medianKernelWidth"], .num (-1)) ∨ w = (s ++ ["medianEvenReflection"], .bool true))) := by
  unfold writes at h
  have hk : ∀ s, w ∈ kernel p s → kernelNeed p s = false ∧
      (w = (s ++ ["medianKernelWidth"], .num (-1)) ∨ w = (s ++ ["medianEvenReflection"], .bool true)) := by
    intro s h
    unfold kernel at h
    by_cases hc : kernelNeed p s = true
    · rw [if_pos hc] at h; exact absurd h (by simp)
    · rw [if_neg hc] at h
      exact ⟨by simpa using hc, by simpa using h⟩
  simp only [List.mem_append, List.mem_flatMap] at h
  rcases h with ((((h | h) | h) | h) | h) | h
  · by_cases hc : rootNeed p = true
    · rw [if_pos hc] at h; exact absurd h (by simp)
    · rw [if_neg hc] at h; exact Or.inl ⟨by simpa using hc, by simpa using h⟩
  · by_cases hc : tplNeed p = true
    · rw [if_pos hc] at h; exact absurd h (by simp)
    · rw [if_neg hc] at h; exact Or.inr (Or.inl ⟨by simpa using hc, by simpa using h⟩)
  · obtain ⟨m, hm, h⟩ := h
    by_cases hc : reestNeed p m = true
    · rw [if_pos hc] at h; exact absurd h (by simp)
    · rw [if_neg hc] at h; exact Or.inr (Or.inr (Or.inl ⟨m, hm, by simpa using hc, by simpa using h⟩))
  · obtain ⟨m, hm, h⟩ := h
    by_cases hc : logNeed p m = true
    · rw [if_pos hc] at h; exact absurd h (by simp)
    · rw [if_neg hc] at h; exact Or.inr (Or.inr (Or.inr (Or.inl ⟨m, hm, by simpa using hc, by simpa using h⟩)))
  · exact Or.inr (Or.inr (Or.inr (Or.inr ⟨removal, Or.inl rfl, hk _ h⟩)))
  · exact Or.inr (Or.inr (Or.inr (Or.inr ⟨tplRemoval, Or.inr rfl, hk _ h⟩)))

/-- C215: nothing else is touched: a value at a path which is not, and is not inside or around, one of the written places is the same before and
after. -/
theorem C215_untouched {p e : Dict} (h : extend p = some e) (q : List String) (hq : ∀ w, Place p w → Apart w q) :
    at_ q (.obj e) = at_ q (.obj p) := by
  refine run_other (writes p) q h fun w hw => hq _ ?_
  rcases mem_writes hw with ⟨_, rfl⟩ | ⟨_, rfl⟩ | ⟨m, hm, _, rfl⟩ | ⟨m, hm, _, rfl⟩ | ⟨s, hs, _, hw⟩
  · exact Or.inl rfl
  · exact Or.inr (Or.inl rfl)
  · exact Or.inr (Or.inr (Or.inr ⟨m, hm, Or.inl rfl⟩))
  · exact Or.inr (Or.inr (Or.inr ⟨m, hm, Or.inr rfl⟩))
  · refine Or.inr (Or.inr (Or.inl ⟨s, hs, ?_⟩))
    rcases hw with rfl | rfl
    · exact Or.inl rfl
    · exact Or.inr rfl

theorem apart_of_head {a b : String} {r s : List String} (h : a ≠ b) : Apart (a :: r) (b :: s) :=
  ⟨fun h' => h (List.cons_prefix_cons.1 h').1, fun h' => h (List.cons_prefix_cons.1 h').1.symm⟩

theorem apart_cons {a : String} {r s : List String} (h : Apart r s) : Apart (a :: r) (a :: s) :=
  ⟨fun h' => h.1 (List.cons_prefix_cons.1 h').2, fun h' => h.2 (List.cons_prefix_cons.1 h').2⟩

theorem apart_cons' {a b : String} {r s : List String} (h : Apart r s) : Apart (a :: r) (b :: s) := by
  by_cases hab : a = b
  · subst hab; exact apart_cons h
  · exact apart_of_head hab

/-- A place of a line model against the writings: apart, except the writing of the same place. -/
theorem model_place {p : Dict} {m k : String} (h1 : m ≠ "continuumRemoval") (h2 : m ≠ "templateCatalog") {w : Write} (hw : w ∈ writes p) :
    Apart w.1 (lineModel m ++ [k]) ∨
    (k = "continuumReestimation" ∧ reestNeed p m = false ∧ w = (lineModel m ++ ["continuumReestimation"], .str "no")) ∨
    (k = "useLogLambdaSampling" ∧ logNeed p m = false ∧ w = (lineModel m ++ ["useLogLambdaSampling"], .bool false)) := by
  have hmod : ∀ m' k', (m' = m ∧ k' = k) ∨ Apart (lineModel m' ++ [k']) (lineModel m ++ [k]) := by
    intro m' k'
    by_cases hm : m' = m
    · subst hm
      by_cases hk : k' = k
      · exact Or.inl ⟨rfl, hk⟩
      · exact Or.inr (apart_cons (apart_cons (apart_cons (apart_cons (apart_of_head hk)))))
    · exact Or.inr (apart_of_head hm)
  rcases mem_writes hw with ⟨_, rfl⟩ | ⟨_, rfl⟩ | ⟨m', _, hn, rfl⟩ | ⟨m', _, hn, rfl⟩ | ⟨s, rfl | rfl, _, rfl | rfl⟩
  · exact Or.inl (apart_of_head h1.symm)
  · exact Or.inl (apart_of_head h2.symm)
  · rcases hmod m' "continuumReestimation" with ⟨rfl, rfl⟩ | h
    · exact Or.inr (Or.inl ⟨rfl, hn, rfl⟩)
    · exact Or.inl h
  · rcases hmod m' "useLogLambdaSampling" with ⟨rfl, rfl⟩ | h
    · exact Or.inr (Or.inr ⟨rfl, hn, rfl⟩)
    · exact Or.inl h
  · exact Or.inl (apart_of_head h1.symm)
  · exact Or.inl (apart_of_head h1.symm)
  · exact Or.inl (apart_of_head h2.symm)
  · exact Or.inl (apart_of_head h2.symm)

/-- C215: the re-estimation of the continuum of a model with the `hybrid` fitting method is that of the user; with any other method, or without
a line model, it is `no` whatever the user gave. -/
theorem C215_reestimation {p e : Dict} (h : extend p = some e) {m : String} (h1 : m ≠ "continuumRemoval") (h2 : m ≠ "templateCatalog") :
    (at_ [m, "redshiftSolver", "lineModelSolve", "lineModel", "fittingMethod"] (.obj p) = some (.str "hybrid") →
      lm e m "continuumReestimation" = lm p m "continuumReestimation") ∧
    (m ∈ ParamV2.models p → at_ [m, "redshiftSolver", "lineModelSolve", "lineModel", "fittingMethod"] (.obj p) ≠ some (.str "hybrid") →
      lm e m "continuumReestimation" = some (.str "no")) := by
  have hiff : reestNeed p m = true ↔ at_ [m, "redshiftSolver", "lineModelSolve", "lineModel", "fittingMethod"] (.obj p) = some (.str "hybrid") := by
    show ParamV2.isStr "hybrid" (at_ [m, "redshiftSolver", "lineModelSolve", "lineModel", "fittingMethod"] (.obj p)) = true ↔ _
    generalize at_ [m, "redshiftSolver", "lineModelSolve", "lineModel", "fittingMethod"] (.obj p) = j
    cases j with
    | none => simp [ParamV2.isStr]
    | some j => cases j <;> simp [ParamV2.isStr]
  constructor
  · intro hy
    refine run_other (writes p) _ h fun w hw => ?_
    rcases model_place (k := "continuumReestimation") h1 h2 hw with ha | ⟨_, hn, _⟩ | ⟨hk, _, _⟩
    · exact ha
    · rw [hiff.2 hy] at hn; cases hn
    · exact absurd hk (by decide)
  · intro hm hn
    have hn' : reestNeed p m = false := by
      cases hr : reestNeed p m
      · rfl
      · exact absurd (hiff.1 hr) hn
    refine run_val (writes p) _ _ h (fun w hw => ?_) (Or.inl ⟨(lineModel m ++ ["continuumReestimation"], .str "no"), ?_, [], rfl, rfl⟩)
    · rcases model_place (k := "continuumReestimation") h1 h2 hw with ha | ⟨_, _, rfl⟩ | ⟨hk, _, _⟩
      · exact Or.inl ha
      · exact Or.inr ⟨[], rfl, rfl⟩
      · exact absurd hk (by decide)
    · unfold writes
      simp only [List.mem_append, List.mem_flatMap]
      refine Or.inl (Or.inl (Or.inl (Or.inr ⟨m, hm, ?_⟩)))
      rw [if_neg (by rw [hn']; simp)]
      exact List.mem_singleton.2 rfl

/-- C215: the logarithmic sampling of a model is that of the user when its continuum is fitted with templates by FFT, and `false` otherwise. -/
theorem C215_loglambda {p e : Dict} (h : extend p = some e) {m : String} (h1 : m ≠ "continuumRemoval") (h2 : m ≠ "templateCatalog") :
    (logNeed p m = true → lm e m "useLogLambdaSampling" = lm p m "useLogLambdaSampling") ∧
    (m ∈ ParamV2.models p → logNeed p m = false → lm e m "useLogLambdaSampling" = some (.bool false)) := by
  constructor
  · intro hy
    refine run_other (writes p) _ h fun w hw => ?_
    rcases model_place (k := "useLogLambdaSampling") h1 h2 hw with ha | ⟨hk, _, _⟩ | ⟨_, hn, _⟩
    · exact ha
    · exact absurd hk (by decide)
    · rw [hy] at hn; cases hn
  · intro hm hn
    refine run_val (writes p) _ _ h (fun w hw => ?_) (Or.inl ⟨(lineModel m ++ ["useLogLambdaSampling"], .bool false), ?_, [], rfl, rfl⟩)
    · rcases model_place (k := "useLogLambdaSampling") h1 h2 hw with ha | ⟨hk, _, _⟩ | ⟨_, _, rfl⟩
      · exact Or.inl ha
      · exact absurd hk (by decide)
      · exact Or.inr ⟨[], rfl, rfl⟩
    · unfold writes
      simp only [List.mem_append, List.mem_flatMap]
      refine Or.inl (Or.inl (Or.inr ⟨m, hm, ?_⟩))
      rw [if_neg (by rw [hn]; simp)]
      exact List.mem_singleton.2 rfl

/-- C215: the other parameters of the line model of a spectrum model are those of the user. -/
theorem C215_linemodel {p e : Dict} (h : extend p = some e) {m k : String} (h1 : m ≠ "continuumRemoval") (h2 : m ≠ "templateCatalog")
    (hk1 : k ≠ "continuumReestimation") (hk2 : k ≠ "useLogLambdaSampling") : lm e m k = lm p m k := by
  refine run_other (writes p) _ h fun w hw => ?_
  rcases model_place (k := k) h1 h2 hw with ha | ⟨hk, _, _⟩ | ⟨hk, _, _⟩
  · exact ha
  · exact absurd hk hk1
  · exact absurd hk hk2

/-- A value of the continuum removal of the spectrum against the writings. -/
theorem removal_place {p : Dict} {k : String} {w : Write} (hw : w ∈ writes p) :
    Apart w.1 ["continuumRemoval", k] ∨ (rootNeed p = false ∧ w = (removal, defaultRemoval)) ∨
    (k = "medianKernelWidth" ∧ kernelNeed p removal = false ∧ w = (removal ++ ["medianKernelWidth"], .num (-1))) ∨
    (k = "medianEvenReflection" ∧ kernelNeed p removal = false ∧ w = (removal ++ ["medianEvenReflection"], .bool true)) ∨
    k = "redshiftSolver" := by
  rcases mem_writes hw with ⟨hn, rfl⟩ | ⟨_, rfl⟩ | ⟨m, _, _, rfl⟩ | ⟨m, _, _, rfl⟩ | ⟨s, rfl | rfl, hn, rfl | rfl⟩
  · exact Or.inr (Or.inl ⟨hn, rfl⟩)
  · exact Or.inl (apart_of_head (by decide))
  · by_cases hk : k = "redshiftSolver"
    · exact Or.inr (Or.inr (Or.inr (Or.inr hk)))
    · exact Or.inl (apart_cons' (apart_of_head (Ne.symm hk)))
  · by_cases hk : k = "redshiftSolver"
    · exact Or.inr (Or.inr (Or.inr (Or.inr hk)))
    · exact Or.inl (apart_cons' (apart_of_head (Ne.symm hk)))
  · by_cases hk : k = "medianKernelWidth"
    · exact Or.inr (Or.inr (Or.inl ⟨hk, hn, rfl⟩))
    · exact Or.inl (apart_cons (apart_of_head (Ne.symm hk)))
  · by_cases hk : k = "medianEvenReflection"
    · exact Or.inr (Or.inr (Or.inr (Or.inl ⟨hk, hn, rfl⟩)))
    · exact Or.inl (apart_cons (apart_of_head (Ne.symm hk)))
  · exact Or.inl (apart_of_head (by decide))
  · exact Or.inl (apart_of_head (by decide))

/-- C215: the method of the continuum removal of the spectrum is that of the user when a redshift solver of a spectrum model needs it, and
`default` otherwise; its kernel is that of the user when needed and the method is `irregularSamplingMedian`. -/
theorem C215_removal {p e : Dict} (h : extend p = some e) :
    (rootNeed p = true → at_ ["continuumRemoval", "method"] (.obj e) = at_ ["continuumRemoval", "method"] (.obj p)) ∧
    (rootNeed p = false → at_ ["continuumRemoval", "method"] (.obj e) = some (.str "default")) ∧
    (rootNeed p = true → at_ ["continuumRemoval", "method"] (.obj p) = some (.str "irregularSamplingMedian") →
      at_ ["continuumRemoval", "medianKernelWidth"] (.obj e) = at_ ["continuumRemoval", "medianKernelWidth"] (.obj p) ∧
      at_ ["continuumRemoval", "medianEvenReflection"] (.obj e) = at_ ["continuumRemoval", "medianEvenReflection"] (.obj p)) := by
  refine ⟨fun hy => ?_, fun hn => ?_, fun hy hm => ?_⟩
  · refine run_other (writes p) _ h fun w hw => ?_
    rcases removal_place (k := "method") hw with ha | ⟨hn, _⟩ | ⟨hk, _⟩ | ⟨hk, _⟩ | hk
    · exact ha
    · rw [hy] at hn; cases hn
    · exact absurd hk (by decide)
    · exact absurd hk (by decide)
    · exact absurd hk (by decide)
  · refine run_val (writes p) _ _ h (fun w hw => ?_) (Or.inl ⟨(removal, defaultRemoval), ?_, ["method"], rfl, rfl⟩)
    · rcases removal_place (k := "method") hw with ha | ⟨_, rfl⟩ | ⟨hk, _⟩ | ⟨hk, _⟩ | hk
      · exact Or.inl ha
      · exact Or.inr ⟨["method"], rfl, rfl⟩
      · exact absurd hk (by decide)
      · exact absurd hk (by decide)
      · exact absurd hk (by decide)
    · unfold writes
      simp only [List.mem_append]
      refine Or.inl (Or.inl (Or.inl (Or.inl (Or.inl ?_))))
      rw [if_neg (by rw [hn]; simp)]
      exact List.mem_singleton.2 rfl
  · have hk0 : kernelNeed p removal = true := by
      show ParamV2.isStr "irregularSamplingMedian" (at_ ["continuumRemoval", "method"] (.obj p)) = true
      rw [hm]; rfl
    constructor
    · refine run_other (writes p) _ h fun w hw => ?_
      rcases removal_place (k := "medianKernelWidth") hw with ha | ⟨hn, _⟩ | ⟨_, hn, _⟩ | ⟨hk, _⟩ | hk
      · exact ha
      · rw [hy] at hn; cases hn
      · rw [hk0] at hn; cases hn
      · exact absurd hk (by decide)
      · exact absurd hk (by decide)
    · refine run_other (writes p) _ h fun w hw => ?_
      rcases removal_place (k := "medianEvenReflection") hw with ha | ⟨hn, _⟩ | ⟨hk, _⟩ | ⟨_, hn, _⟩ | hk
      · exact ha
      · rw [hy] at hn; cases hn
      · exact absurd hk (by decide)
      · rw [hk0] at hn; cases hn
      · exact absurd hk (by decide)

/-- A value of the continuum removal of the template catalog against the writings. -/
theorem tplRemoval_place {p : Dict} (hm : "templateCatalog" ∉ ParamV2.models p) {k : String} {w : Write} (hw : w ∈ writes p) :
    Apart w.1 ["templateCatalog", "continuumRemoval", k] ∨ (tplNeed p = false ∧ w = (tplRemoval, defaultRemoval)) ∨
    (k = "medianKernelWidth" ∧ kernelNeed p tplRemoval = false ∧ w = (tplRemoval ++ ["medianKernelWidth"], .num (-1))) ∨
    (k = "medianEvenReflection" ∧ kernelNeed p tplRemoval = false ∧ w = (tplRemoval ++ ["medianEvenReflection"], .bool true)) := by
  rcases mem_writes hw with ⟨hn, rfl⟩ | ⟨hn, rfl⟩ | ⟨m, h, _, rfl⟩ | ⟨m, h, _, rfl⟩ | ⟨s, rfl | rfl, hn, rfl | rfl⟩
  · exact Or.inl (apart_of_head (by decide))
  · exact Or.inr (Or.inl ⟨hn, rfl⟩)
  · exact Or.inl (apart_of_head (by rintro rfl; exact hm h))
  · exact Or.inl (apart_of_head (by rintro rfl; exact hm h))
  · exact Or.inl (apart_of_head (by decide))
  · exact Or.inl (apart_of_head (by decide))
  · by_cases hk : k = "medianKernelWidth"
    · exact Or.inr (Or.inr (Or.inl ⟨hk, hn, rfl⟩))
    · exact Or.inl (apart_cons (apart_cons (apart_of_head (Ne.symm hk))))
  · by_cases hk : k = "medianEvenReflection"
    · exact Or.inr (Or.inr (Or.inr ⟨hk, hn, rfl⟩))
    · exact Or.inl (apart_cons (apart_cons (apart_of_head (Ne.symm hk))))

/-- C215: the method of the continuum removal of the template catalog is that of the user when the templates of a solver need it, and `default`
otherwise; without the irregular median as method, the kernel is -1 with the even reflection whatever the user gave. -/
theorem C215_template_removal {p e : Dict} (h : extend p = some e) (hm : "templateCatalog" ∉ ParamV2.models p) :
    (tplNeed p = true → at_ ["templateCatalog", "continuumRemoval", "method"] (.obj e) =
      at_ ["templateCatalog", "continuumRemoval", "method"] (.obj p)) ∧
    (tplNeed p = false → at_ ["templateCatalog", "continuumRemoval", "method"] (.obj e) = some (.str "default")) ∧
    (at_ ["templateCatalog", "continuumRemoval", "method"] (.obj p) ≠ some (.str "irregularSamplingMedian") →
      at_ ["templateCatalog", "continuumRemoval", "medianKernelWidth"] (.obj e) = some (.num (-1)) ∧
      at_ ["templateCatalog", "continuumRemoval", "medianEvenReflection"] (.obj e) = some (.bool true)) ∧
    (tplNeed p = true → at_ ["templateCatalog", "continuumRemoval", "method"] (.obj p) = some (.str "irregularSamplingMedian") →
      at_ ["templateCatalog", "continuumRemoval", "medianKernelWidth"] (.obj e) =
        at_ ["templateCatalog", "continuumRemoval", "medianKernelWidth"] (.obj p) ∧
      at_ ["templateCatalog", "continuumRemoval", "medianEvenReflection"] (.obj e) =
        at_ ["templateCatalog", "continuumRemoval", "medianEvenReflection"] (.obj p)) := by
  have hiff : kernelNeed p tplRemoval = true ↔
      at_ ["templateCatalog", "continuumRemoval", "method"] (.obj p) = some (.str "irregularSamplingMedian") := by
    show ParamV2.isStr "irregularSamplingMedian" (at_ ["templateCatalog", "continuumRemoval", "method"] (.obj p)) = true ↔ _
    generalize at_ ["templateCatalog", "continuumRemoval", "method"] (.obj p) = j
    cases j with
    | none => simp [ParamV2.isStr]
    | some j => cases j <;> simp [ParamV2.isStr]
  refine ⟨fun hy => ?_, fun hn => ?_, fun hne => ?_, fun hy hme => ?_⟩
  · refine run_other (writes p) _ h fun w hw => ?_
    rcases tplRemoval_place hm (k := "method") hw with ha | ⟨hn, _⟩ | ⟨hk, _⟩ | ⟨hk, _⟩
    · exact ha
    · rw [hy] at hn; cases hn
    · exact absurd hk (by decide)
    · exact absurd hk (by decide)
  · refine run_val (writes p) _ _ h (fun w hw => ?_) (Or.inl ⟨(tplRemoval, defaultRemoval), ?_, ["method"], rfl, rfl⟩)
    · rcases tplRemoval_place hm (k := "method") hw with ha | ⟨_, rfl⟩ | ⟨hk, _⟩ | ⟨hk, _⟩
      · exact Or.inl ha
      · exact Or.inr ⟨["method"], rfl, rfl⟩
      · exact absurd hk (by decide)
      · exact absurd hk (by decide)
    · unfold writes
      simp only [List.mem_append]
      refine Or.inl (Or.inl (Or.inl (Or.inl (Or.inr ?_))))
      rw [if_neg (by rw [hn]; simp)]
      exact List.mem_singleton.2 rfl
  · have hk0 : ¬ kernelNeed p tplRemoval = true := fun hc => hne (hiff.1 hc)
    have hw1 : ∀ w ∈ kernel p tplRemoval, w ∈ writes p := fun w hw => by
      unfold writes
      exact List.mem_append.2 (Or.inr hw)
    have hw2 : kernel p tplRemoval =
        [(tplRemoval ++ ["medianKernelWidth"], .num (-1)), (tplRemoval ++ ["medianEvenReflection"], .bool true)] := if_neg hk0
    rw [hw2] at hw1
    constructor
    · refine run_val (writes p) _ _ h (fun w hw => ?_) (Or.inl ⟨_, hw1 _ List.mem_cons_self, [], rfl, rfl⟩)
      rcases tplRemoval_place hm (k := "medianKernelWidth") hw with ha | ⟨_, rfl⟩ | ⟨_, _, rfl⟩ | ⟨hk, _⟩
      · exact Or.inl ha
      · exact Or.inr ⟨["medianKernelWidth"], rfl, rfl⟩
      · exact Or.inr ⟨[], rfl, rfl⟩
      · exact absurd hk (by decide)
    · refine run_val (writes p) _ _ h (fun w hw => ?_) (Or.inl ⟨_, hw1 _ (List.mem_cons_of_mem _ List.mem_cons_self), [], rfl, rfl⟩)
      rcases tplRemoval_place hm (k := "medianEvenReflection") hw with ha | ⟨_, rfl⟩ | ⟨hk, _⟩ | ⟨_, _, rfl⟩
      · exact Or.inl ha
      · exact Or.inr ⟨["medianEvenReflection"], rfl, rfl⟩
      · exact absurd hk (by decide)
      · exact Or.inr ⟨[], rfl, rfl⟩
  · have hk0 : kernelNeed p tplRemoval = true := hiff.2 hme
    constructor
    · refine run_other (writes p) _ h fun w hw => ?_
      rcases tplRemoval_place hm (k := "medianKernelWidth") hw with ha | ⟨hn, _⟩ | ⟨_, hn, _⟩ | ⟨hk, _⟩
      · exact ha
      · rw [hy] at hn; cases hn
      · rw [hk0] at hn; cases hn
      · exact absurd hk (by decide)
    · refine run_other (writes p) _ h fun w hw => ?_
      rcases tplRemoval_place hm (k := "medianEvenReflection") hw with ha | ⟨hn, _⟩ | ⟨hk, _⟩ | ⟨_, hn, _⟩
      · exact ha
      · rw [hy] at hn; cases hn
      · exact absurd hk (by decide)
      · rw [hk0] at hn; cases hn

/-- Specification: a value is given, and it is not the one that says there is nothing to do. -/
def Asked (x : String) (j : Option J) : Prop := ∃ v, j = some v ∧ v ≠ .null ∧ v ≠ .str x

theorem notNoneNor_iff (x : String) (j : Option J) : notNoneNor x j = true ↔ Asked x j := by
  unfold Asked
  cases j with
  | none => simp [notNoneNor]
  | some j => cases j <;> simp [notNoneNor]

/-- C215: what is needed, by the parameters: the removal on templates, for a model fitted with templates whose component is not `raw`; that of the
spectrum, for such a model or for a line model whose continuum comes from the spectrum, or is `tplFitAuto`, or is re-estimated (`never` being the only
value that says no). -/
theorem C215_needs (p : Dict) :
    (tplNeed p = true ↔ ∃ m ∈ ParamV2.models p,
      Asked "raw" (ParamV2.inModel p m ["redshiftSolver", "templateFittingSolve", "spectrum", "component"]) ∨
      Asked "raw" (ParamV2.inModel p m ["redshiftSolver", "tplCombinationSolve", "spectrum", "component"])) ∧
    (rootNeed p = true ↔ tplNeed p = true ∨ ∃ m ∈ ParamV2.models p,
      lm p m "continuumComponent" = some (.str "fromSpectrum") ∨ lm p m "continuumComponent" = some (.str "tplFitAuto") ∨
      Asked "never" (lm p m "continuumReestimation")) := by
  have hs : ∀ (x : String) (j : Option J), ParamV2.isStr x j = true ↔ j = some (.str x) := by
    intro x j
    cases j with
    | none => simp [ParamV2.isStr]
    | some j => cases j <;> simp [ParamV2.isStr]
  have h1 : tplNeed p = true ↔ ∃ m ∈ ParamV2.models p,
      Asked "raw" (ParamV2.inModel p m ["redshiftSolver", "templateFittingSolve", "spectrum", "component"]) ∨
      Asked "raw" (ParamV2.inModel p m ["redshiftSolver", "tplCombinationSolve", "spectrum", "component"]) := by
    simp only [tplNeed, List.any_eq_true, Bool.or_eq_true, notNoneNor_iff]
  refine ⟨h1, ?_⟩
  rw [h1]
  simp only [rootNeed, List.any_eq_true, Bool.or_eq_true, notNoneNor_iff, hs]
  constructor
  · rintro ⟨m, hm, (((h | h) | h) | h) | h⟩
    · exact Or.inl ⟨m, hm, Or.inl h⟩
    · exact Or.inl ⟨m, hm, Or.inr h⟩
    · exact Or.inr ⟨m, hm, Or.inl h⟩
    · exact Or.inr ⟨m, hm, Or.inr (Or.inl h)⟩
    · exact Or.inr ⟨m, hm, Or.inr (Or.inr h)⟩
  · rintro (⟨m, hm, h | h⟩ | ⟨m, hm, h | h | h⟩)
    · exact ⟨m, hm, Or.inl (Or.inl (Or.inl (Or.inl h)))⟩
    · exact ⟨m, hm, Or.inl (Or.inl (Or.inl (Or.inr h)))⟩
    · exact ⟨m, hm, Or.inl (Or.inl (Or.inr h))⟩
    · exact ⟨m, hm, Or.inl (Or.inr h)⟩
    · exact ⟨m, hm, Or.inr h⟩

/-- The hypotheses are met: a model that needs the removals and keeps its values. -/
example : ∃ p : Dict, (extend p).isSome = true ∧ tplNeed p = true ∧ rootNeed p = true ∧ reestNeed p "galaxy" = true ∧ logNeed p "galaxy" = true ∧
    "templateCatalog" ∉ ParamV2.models p ∧ kernelNeed p removal = true :=
  ⟨[("spectrumModels", .arr [.str "galaxy"]), ("continuumRemoval", .obj [("method", .str "irregularSamplingMedian")]),
    ("galaxy", .obj [("redshiftSolver", .obj [("templateFittingSolve", .obj [("spectrum", .obj [("component", .str "continuum")])]),
      ("lineModelSolve", .obj [("lineModel", .obj [("fittingMethod", .str "hybrid"), ("continuumComponent", .str "tplFit"),
        ("continuumFit", .obj [("fftProcessing", .bool true)])])])])])], by decide +kernel⟩

/-- C215: the logarithmic sampling is needed by a continuum fitted with templates (`tplFit` or `tplFitAuto`) whose FFT flag is true; a flag that is
absent or false is no need. -/
theorem C215_log_needs (p : Dict) (m : String) :
    (logNeed p m = true → lm p m "continuumComponent" = some (.str "tplFit") ∨ lm p m "continuumComponent" = some (.str "tplFitAuto")) ∧
    (∀ b, at_ [m, "redshiftSolver", "lineModelSolve", "lineModel", "continuumFit", "fftProcessing"] (.obj p) = some (.bool b) →
      (lm p m "continuumComponent" = some (.str "tplFit") ∨ lm p m "continuumComponent" = some (.str "tplFitAuto")) → logNeed p m = b) ∧
    (at_ [m, "redshiftSolver", "lineModelSolve", "lineModel", "continuumFit", "fftProcessing"] (.obj p) = none → logNeed p m = false) := by
  have hs : ∀ (x : String) (j : Option J), ParamV2.isStr x j = true ↔ j = some (.str x) := by
    intro x j
    cases j with
    | none => simp [ParamV2.isStr]
    | some j => cases j <;> simp [ParamV2.isStr]
  have e : logNeed p m = ((ParamV2.isStr "tplFit" (lm p m "continuumComponent") || ParamV2.isStr "tplFitAuto" (lm p m "continuumComponent")) &&
    ((at_ [m, "redshiftSolver", "lineModelSolve", "lineModel", "continuumFit", "fftProcessing"] (.obj p)).map ParamV1.truthy).getD false) := rfl
  rw [e]
  refine ⟨fun h => ?_, fun b hb hc => ?_, fun hn => ?_⟩
  · have := (Bool.and_eq_true _ _ ▸ h).1
    rcases Bool.or_eq_true _ _ ▸ this with h | h
    · exact Or.inl ((hs _ _).1 h)
    · exact Or.inr ((hs _ _).1 h)
  · rw [hb]
    have : (ParamV2.isStr "tplFit" (lm p m "continuumComponent") || ParamV2.isStr "tplFitAuto" (lm p m "continuumComponent")) = true := by
      rcases hc with h | h
      · rw [(hs _ _).2 h, Bool.true_or]
      · rw [(hs _ _).2 h, Bool.or_true]
    rw [this, Bool.true_and]
    rfl
  · rw [hn]
    exact Bool.and_false _

/-- C215: without the irregular median as method, the kernel of the removal of the spectrum is -1 with the even reflection whatever the user gave. -/
theorem C215_kernel {p e : Dict} (h : extend p = some e)
    (hne : at_ ["continuumRemoval", "method"] (.obj p) ≠ some (.str "irregularSamplingMedian")) :
    at_ ["continuumRemoval", "medianKernelWidth"] (.obj e) = some (.num (-1)) ∧
    at_ ["continuumRemoval", "medianEvenReflection"] (.obj e) = some (.bool true) := by
  have hk0 : ¬ kernelNeed p removal = true := by
    intro hc
    have hc : ParamV2.isStr "irregularSamplingMedian" (at_ ["continuumRemoval", "method"] (.obj p)) = true := hc
    revert hne hc
    generalize at_ ["continuumRemoval", "method"] (.obj p) = j
    cases j with
    | none => simp [ParamV2.isStr]
    | some j => cases j <;> simp [ParamV2.isStr]
  have hw1 : ∀ w ∈ kernel p removal, w ∈ writes p := fun w hw => by
    unfold writes
    exact List.mem_append.2 (Or.inl (List.mem_append.2 (Or.inr hw)))
  have hw2 : kernel p removal = [(removal ++ ["medianKernelWidth"], .num (-1)), (removal ++ ["medianEvenReflection"], .bool true)] := if_neg hk0
  rw [hw2] at hw1
  constructor
  · refine run_val (writes p) _ _ h (fun w hw => ?_) (Or.inl ⟨_, hw1 _ List.mem_cons_self, [], rfl, rfl⟩)
    rcases removal_place (k := "medianKernelWidth") hw with ha | ⟨_, rfl⟩ | ⟨_, _, rfl⟩ | ⟨hk, _⟩ | hk
    · exact Or.inl ha
    · exact Or.inr ⟨["medianKernelWidth"], rfl, rfl⟩
    · exact Or.inr ⟨[], rfl, rfl⟩
    · exact absurd hk (by decide)
    · exact absurd hk (by decide)
  · refine run_val (writes p) _ _ h (fun w hw => ?_) (Or.inl ⟨_, hw1 _ (List.mem_cons_of_mem _ List.mem_cons_self), [], rfl, rfl⟩)
    rcases removal_place (k := "medianEvenReflection") hw with ha | ⟨_, rfl⟩ | ⟨hk, _⟩ | ⟨_, _, rfl⟩ | hk
    · exact Or.inl ha
    · exact Or.inr ⟨["medianEvenReflection"], rfl, rfl⟩
    · exact absurd hk (by decide)
    · exact Or.inr ⟨[], rfl, rfl⟩
    · exact absurd hk (by decide)

/-- Specification: the value the user gave is kept. -/
def Kept (p e : Dict) (q : List String) : Prop := ∀ v, at_ q (.obj p) = some v → at_ q (.obj e) = some v

/-- C215 (partial: a value is kept outside of the written places, see the counterexamples): the value of the user is kept. -/
theorem C215_kept_partial {p e : Dict} (h : extend p = some e) (q : List String) (hq : ∀ w, Place p w → Apart w q) : Kept p e q :=
  fun v hv => by rw [C215_untouched h q hq]; exact hv

/-- C215 is false of the code: the re-estimation of the continuum asked by the user is lost, the fitting method not being `hybrid`. -/
theorem C215_reestimation_counterexample :
    ∃ (p e : Dict), extend p = some e ∧ ¬ Kept p e ["galaxy", "redshiftSolver", "lineModelSolve", "lineModel", "continuumReestimation"] := by
  let p : Dict := [("spectrumModels", .arr [.str "galaxy"]), ("galaxy", .obj [("redshiftSolver", .obj [("method", .str "lineModelSolve"),
    ("lineModelSolve", .obj [("lineModel", .obj [("continuumComponent", .str "fromSpectrum"), ("fittingMethod", .str "individual"),
      ("continuumReestimation", .str "onlyextrema")])])])])]
  have hs : (extend p).isSome = true := by decide +kernel
  obtain ⟨e, he⟩ := Option.isSome_iff_exists.1 hs
  refine ⟨p, e, he, fun hk => ?_⟩
  have h1 := hk (.str "onlyextrema") rfl
  have h2 := (C215_reestimation he (m := "galaxy") (by decide) (by decide)).2 (List.mem_cons_self ..) (by
    intro h
    have : at_ ["galaxy", "redshiftSolver", "lineModelSolve", "lineModel", "fittingMethod"] (.obj p) = some (.str "individual") := rfl
    rw [this] at h
    exact absurd h (by simp))
  rw [show lm e "galaxy" "continuumReestimation" =
    at_ ["galaxy", "redshiftSolver", "lineModelSolve", "lineModel", "continuumReestimation"] (.obj e) from rfl, h1] at h2
  exact absurd h2 (by simp)

/-- C215 is false of the code: the continuum removal asked by the user is replaced by the default, the only need being that of the line
measurement. -/
theorem C215_removal_counterexample :
    ∃ (p e : Dict), extend p = some e ∧
      at_ ["galaxy", "lineMeasSolver", "lineMeasSolve", "lineModel", "continuumComponent"] (.obj p) = some (.str "fromSpectrum") ∧
      ¬ Kept p e ["continuumRemoval", "method"] := by
  let p : Dict := [("spectrumModels", .arr [.str "galaxy"]), ("continuumRemoval", .obj [("method", .str "irregularSamplingMedian"),
      ("medianKernelWidth", .num 74), ("medianEvenReflection", .bool true)]),
    ("galaxy", .obj [("lineMeasSolver", .obj [("lineMeasSolve", .obj [("lineModel", .obj [("continuumComponent", .str "fromSpectrum")])])])])]
  have hs : (extend p).isSome = true := by decide +kernel
  obtain ⟨e, he⟩ := Option.isSome_iff_exists.1 hs
  refine ⟨p, e, he, rfl, fun hk => ?_⟩
  have h1 := hk (.str "irregularSamplingMedian") rfl
  have h2 := (C215_removal he).2.1 (by decide +kernel)
  rw [h1] at h2
  exact absurd h2 (by simp)

end ParamExt
end Amazed
