import Verif.Props.ParamV1Props
import Mathlib.Tactic.SplitIfs

/-!
# C212: the sections of the converted version-1 parameters
-/

set_option linter.unusedVariables false
set_option linter.unusedSimpArgs false

namespace Amazed
namespace ParamV1

/-! ### Specification -/

/-- The stages of a section. -/
def stages (s : Dict) : List J :=
  match Dict.get "stages" s with
  | some (.arr l) => l
  | _ => []

/-- A member of the redshift solver of a section. -/
def inSolver (k : String) (s : Dict) : Option J := (Dict.get "redshiftSolver" s).bind (J.field k)

/-! ### The parts on one section -/

theorem addStage_spec {x : String} {s r : Dict} (h : addStage x s = some r) :
    stages r = stages s ++ [.str x] ∧ ∀ k, k ≠ "stages" → Dict.get k r = Dict.get k s := by
  unfold addStage at h
  unfold stages
  split at h
  next hg =>
    simp only [Option.some.injEq] at h
    subst h
    rw [hg]
    refine ⟨by simp [Dict.get_put], fun k hk => ?_⟩
    rw [Dict.get_put]
    simp [Ne.symm hk]
  next l hg =>
    simp only [Option.some.injEq] at h
    subst h
    rw [hg]
    refine ⟨by simp [Dict.get_put], fun k hk => ?_⟩
    rw [Dict.get_put]
    simp [Ne.symm hk]
  next => simp at h

theorem move_spec {s r : Dict} {n : String} (hn : n ≠ "redshiftSolver") (h : move s n = some r) :
    (∀ k, k ≠ n → k ≠ "redshiftSolver" → Dict.get k r = Dict.get k s) ∧ Dict.get n r = none ∧
    (∀ v, Dict.get n s = some v → inSolver n r = some v) ∧
    (Dict.get n s = none → inSolver n r = inSolver n s) ∧
    ∀ k, k ≠ n → inSolver k r = inSolver k s := by
  unfold move at h
  cases hg : Dict.get n s with
  | none =>
    simp only [hg, Option.some.injEq] at h
    subst h
    exact ⟨fun _ _ _ => rfl, hg, fun v hv => (by cases hv), fun _ => rfl, fun _ _ => rfl⟩
  | some v =>
    simp only [hg] at h
    split at h
    next o ho =>
      simp only [Option.some.injEq] at h
      subst h
      refine ⟨fun k h1 h2 => ?_, ?_, fun w hw => ?_, fun hc => (by cases hc), fun k hk => ?_⟩
      · rw [Dict.get_put, Dict.get_del]
        simp [Ne.symm h1, Ne.symm h2]
      · rw [Dict.get_put, Dict.get_del]
        simp [Ne.symm hn]
      · simp only [Option.some.injEq] at hw
        subst hw
        unfold inSolver
        rw [Dict.get_put]
        simp [J.field, Dict.get_put]
      · unfold inSolver
        rw [Dict.get_put]
        simp only [if_true, Option.bind_some, J.field, Dict.get_put, Ne.symm hk, if_false]
        cases hs : Dict.get "redshiftSolver" s with
        | none =>
          rw [hs] at ho
          simp only [Option.getD_none, J.obj.injEq] at ho
          subst ho
          rfl
        | some j =>
          rw [hs] at ho
          simp only [Option.getD_some] at ho
          subst ho
          rfl
    next => simp at h

/-- The keys the redshift part may change. -/
def redshiftKeys : List String := ["method", "stages", "redshiftSolver"] ++ methods

theorem setMethod_spec {m : Option J} {s r : Dict} (h : setMethod m s = some r) :
    (∀ k, k ≠ "stages" → k ≠ "redshiftSolver" → Dict.get k r = Dict.get k s) ∧
    (∀ n ∈ methods, m = some (.str n) → stages r = stages s ++ [.str "redshiftSolver"] ∧
      inSolver "method" r = some (.str n)) ∧
    ((∀ n ∈ methods, m ≠ some (.str n)) → r = s) := by
  unfold setMethod at h
  split at h
  next n =>
    by_cases hc : n ∈ methods
    · have hb : methods.contains n = true := by simpa using hc
      simp only [hb, if_true, Option.map_eq_some_iff] at h
      obtain ⟨s1, h1, h2⟩ := h
      obtain ⟨h3, h4⟩ := addStage_spec h1
      subst h2
      refine ⟨fun k h5 h6 => ?_, fun n' hn' he => ?_, fun hh => absurd rfl (hh n hc)⟩
      · rw [Dict.get_put]
        simp only [Ne.symm h6, if_false]
        exact h4 k h5
      · cases he
        refine ⟨?_, ?_⟩
        · rw [← h3]
          unfold stages
          rw [Dict.get_put]
          rfl
        · unfold inSolver
          rw [Dict.get_put]
          simp [J.field, Dict.get]
    · have hb : methods.contains n = false := by simpa using hc
      simp only [hb, Bool.false_eq_true, if_false, Option.some.injEq] at h
      subst h
      refine ⟨fun _ _ _ => rfl, fun n' hn' he => ?_, fun _ => rfl⟩
      cases he
      exact absurd hn' hc
  next hne =>
    simp only [Option.some.injEq] at h
    subst h
    exact ⟨fun _ _ _ => rfl, fun n' hn' he => absurd he (hne n'), fun _ => rfl⟩

/-- **C212 (redshift solver).** What the redshift part does to a section. -/
theorem redshiftPart_spec {s r : Dict} (h : redshiftPart s = some r) :
    (∀ k, k ∉ redshiftKeys → Dict.get k r = Dict.get k s) ∧ Dict.get "method" r = none ∧
    (∀ n ∈ methods, Dict.get n r = none ∧ ∀ v, Dict.get n s = some v → inSolver n r = some v) ∧
    (∀ n ∈ methods, Dict.get "method" s = some (.str n) →
      stages r = stages s ++ [.str "redshiftSolver"] ∧ inSolver "method" r = some (.str n)) ∧
    ((∀ n ∈ methods, Dict.get "method" s ≠ some (.str n)) →
      stages r = stages s ∧ inSolver "method" r = inSolver "method" s) := by
  unfold redshiftPart at h
  simp only [Option.bind_eq_some_iff] at h
  obtain ⟨s1, h1, s2, h2, s3, h3, h4⟩ := h
  obtain ⟨f1, m1, u1⟩ := setMethod_spec h1
  obtain ⟨f2, d2, v2, n2, i2⟩ := move_spec (by decide +kernel) h2
  obtain ⟨f3, d3, v3, n3, i3⟩ := move_spec (by decide +kernel) h3
  obtain ⟨f4, d4, v4, n4, i4⟩ := move_spec (by decide +kernel) h4
  have hfr : ∀ k, k ≠ "redshiftSolver" → k ∉ methods → Dict.get k r = Dict.get k s1 := by
    intro k hk hm
    simp only [methods, List.mem_cons, List.not_mem_nil, or_false, not_or] at hm
    rw [f4 k hm.2.2 hk, f3 k hm.2.1 hk, f2 k hm.1 hk]
  have hdel : ∀ k, k ≠ "method" → Dict.get k (Dict.del "method" s) = Dict.get k s := by
    intro k hk
    rw [Dict.get_del]
    simp [Ne.symm hk]
  have hst : stages (Dict.del "method" s) = stages s := by
    unfold stages
    rw [hdel "stages" (by decide +kernel)]
  have hstr : stages r = stages s1 := by
    unfold stages
    rw [hfr "stages" (by decide +kernel) (by decide +kernel)]
  have hmr : inSolver "method" r = inSolver "method" s1 := by
    rw [i4 _ (by decide +kernel), i3 _ (by decide +kernel), i2 _ (by decide +kernel)]
  refine ⟨?_, ?_, ?_, ?_, ?_⟩
  · intro k hk
    simp only [redshiftKeys, List.mem_append, not_or, List.mem_cons, List.not_mem_nil, or_false] at hk
    rw [hfr k hk.1.2.2 hk.2, f1 k hk.1.2.1 hk.1.2.2, hdel k hk.1.1]
  · rw [hfr _ (by decide +kernel) (by decide +kernel), f1 _ (by decide +kernel) (by decide +kernel), Dict.get_del]
    simp
  · intro n hn
    have e1 : ∀ n, n ∈ methods → Dict.get n s1 = Dict.get n s := by
      intro n hn
      have a1 : ∀ n ∈ methods, n ≠ "stages" ∧ n ≠ "redshiftSolver" ∧ n ≠ "method" := by decide +kernel
      obtain ⟨b1, b2, b3⟩ := a1 n hn
      rw [f1 n b1 b2, hdel n b3]
    have hn' := hn
    simp only [methods, List.mem_cons, List.not_mem_nil, or_false] at hn'
    rcases hn' with rfl | rfl | rfl
    · refine ⟨?_, fun v hv => ?_⟩
      · rw [f4 _ (by decide +kernel) (by decide +kernel), f3 _ (by decide +kernel) (by decide +kernel), d2]
      · rw [i4 _ (by decide +kernel), i3 _ (by decide +kernel)]
        exact v2 v ((e1 _ hn).trans hv)
    · refine ⟨?_, fun v hv => ?_⟩
      · rw [f4 _ (by decide +kernel) (by decide +kernel), d3]
      · rw [i4 _ (by decide +kernel)]
        refine v3 v ?_
        rw [f2 _ (by decide +kernel) (by decide +kernel)]
        exact (e1 _ hn).trans hv
    · refine ⟨d4, fun v hv => ?_⟩
      refine v4 v ?_
      rw [f3 _ (by decide +kernel) (by decide +kernel), f2 _ (by decide +kernel) (by decide +kernel)]
      exact (e1 _ hn).trans hv
  · intro n hn he
    obtain ⟨a, b⟩ := m1 n hn he
    rw [hstr, hmr, a, b, hst]
    exact ⟨rfl, rfl⟩
  · intro hne
    have := u1 hne
    rw [hstr, hmr, this, hst]
    refine ⟨rfl, ?_⟩
    unfold inSolver
    rw [hdel "redshiftSolver" (by decide +kernel)]

/-- **C212 (line measurement).** What the line-measurement part does to a section. -/
theorem linemeasPart_spec {s r : Dict} (h : linemeasPart s = some r) :
    (∀ k, k ∉ ["linemeas_method", "stages", "lineMeasSolver", "lineMeasSolve"] → Dict.get k r = Dict.get k s) ∧
    Dict.get "linemeas_method" r = none ∧
    (ParamV2.isStr "lineMeasSolve" (Dict.get "linemeas_method" s) = true →
      stages r = stages s ++ [.str "lineMeasSolver"] ∧ ∃ v, Dict.get "lineMeasSolve" s = some v ∧
      Dict.get "lineMeasSolver" r = some (.obj [("method", .str "lineMeasSolve"), ("lineMeasSolve", v)])) ∧
    (ParamV2.isStr "lineMeasSolve" (Dict.get "linemeas_method" s) = false →
      ∀ k, k ≠ "linemeas_method" → Dict.get k r = Dict.get k s) := by
  unfold linemeasPart at h
  by_cases e : ParamV2.isStr "lineMeasSolve" (Dict.get "linemeas_method" s) = true
  · simp only [e, if_true] at h
    cases hv : Dict.get "lineMeasSolve" s with
    | none => simp [hv] at h
    | some v =>
      simp only [hv, Option.map_eq_some_iff] at h
      obtain ⟨s1, h1, h2⟩ := h
      obtain ⟨h3, h4⟩ := addStage_spec h1
      subst h2
      refine ⟨fun k hk => ?_, ?_, fun _ => ⟨?_, v, rfl, ?_⟩, fun hc => ?_⟩
      · simp only [List.mem_cons, List.not_mem_nil, or_false, not_or] at hk
        rw [Dict.get_put, Dict.get_del]
        simp only [Ne.symm hk.2.2.1, Ne.symm hk.2.2.2, if_false]
        rw [h4 k hk.2.1, Dict.get_del]
        simp [Ne.symm hk.1]
      · rw [Dict.get_put, Dict.get_del]
        have a1 : ("lineMeasSolver" = "linemeas_method") = False := by simp
        have a2 : ("lineMeasSolve" = "linemeas_method") = False := by simp
        simp only [a1, a2, if_false]
        rw [h4 _ (by decide +kernel), Dict.get_del]
        simp
      · have : stages (Dict.del "linemeas_method" s) = stages s := by
          unfold stages
          rw [Dict.get_del]
          simp
        rw [← this, ← h3]
        unfold stages
        rw [Dict.get_put, Dict.get_del]
        simp
      · rw [Dict.get_put]
        simp
      · rw [e] at hc
        cases hc
  · simp only [e, Bool.false_eq_true, if_false, Option.some.injEq] at h
    subst h
    refine ⟨fun k hk => ?_, ?_, fun hc => absurd hc e, fun _ k hk => ?_⟩
    · simp only [List.mem_cons, not_or] at hk
      rw [Dict.get_del]
      simp [Ne.symm hk.1]
    · rw [Dict.get_del]
      simp
    · rw [Dict.get_del]
      simp [Ne.symm hk]

/-- The reliability is asked for. -/
def wantsReliability (s : Dict) : Bool := ((Dict.get "enable_reliability" s).map truthy).getD false

/-- **C212 (reliability).** What the reliability part does to a section. -/
theorem reliabilityPart_spec {s r : Dict} (h : reliabilityPart s = some r) :
    (∀ k, k ∉ ["enable_reliability", "stages", "reliabilitySolver", "reliabilityModel"] →
      Dict.get k r = Dict.get k s) ∧
    Dict.get "enable_reliability" r = none ∧ Dict.get "reliabilityModel" r = none ∧
    (wantsReliability s = true →
      stages r = stages s ++ [.str "reliabilitySolver"] ∧ ∃ v, Dict.get "reliabilityModel" s = some v ∧
      Dict.get "reliabilitySolver" r = some (.obj [("method", .str "deepLearningSolver"),
        ("deepLearningSolver", .obj [("reliabilityModel", v)])])) ∧
    (wantsReliability s = false →
      stages r = stages s ∧ Dict.get "reliabilitySolver" r = Dict.get "reliabilitySolver" s) := by
  unfold reliabilityPart at h
  by_cases e : wantsReliability s = true
  · have e' := e
    unfold wantsReliability at e'
    simp only [e', if_true] at h
    cases hv : Dict.get "reliabilityModel" s with
    | none => simp [hv] at h
    | some v =>
      simp only [hv, Option.map_eq_some_iff] at h
      obtain ⟨s1, h1, h2⟩ := h
      obtain ⟨h3, h4⟩ := addStage_spec h1
      subst h2
      refine ⟨fun k hk => ?_, ?_, ?_, fun _ => ⟨?_, v, rfl, ?_⟩, fun hc => ?_⟩
      · simp only [List.mem_cons, List.not_mem_nil, or_false, not_or] at hk
        rw [Dict.get_put, Dict.get_del]
        simp only [Ne.symm hk.2.2.1, Ne.symm hk.2.2.2, if_false]
        rw [h4 k hk.2.1, Dict.get_del]
        simp [Ne.symm hk.1]
      · rw [Dict.get_put, Dict.get_del]
        have a1 : ("reliabilitySolver" = "enable_reliability") = False := by simp
        have a2 : ("reliabilityModel" = "enable_reliability") = False := by simp
        simp only [a1, a2, if_false]
        rw [h4 _ (by decide +kernel), Dict.get_del]
        simp
      · rw [Dict.get_put, Dict.get_del]
        simp
      · have : stages (Dict.del "enable_reliability" s) = stages s := by
          unfold stages
          rw [Dict.get_del]
          simp
        rw [← this, ← h3]
        unfold stages
        rw [Dict.get_put, Dict.get_del]
        simp
      · rw [Dict.get_put]
        simp
      · rw [e] at hc
        cases hc
  · have e' := e
    unfold wantsReliability at e'
    simp only [e', Bool.false_eq_true, if_false, Option.some.injEq] at h
    subst h
    refine ⟨fun k hk => ?_, ?_, ?_, fun hc => absurd hc e, fun _ => ⟨?_, ?_⟩⟩
    · simp only [List.mem_cons, List.not_mem_nil, or_false, not_or] at hk
      rw [Dict.get_del, Dict.get_del]
      simp [Ne.symm hk.1, Ne.symm hk.2.2.2]
    · rw [Dict.get_del, Dict.get_del]
      simp
    · rw [Dict.get_del]
      simp
    · unfold stages
      rw [Dict.get_del, Dict.get_del]
      simp
    · rw [Dict.get_del, Dict.get_del]
      simp

/-! ### The loop over the models -/

theorem pass_spec {f : Dict → Option Dict} : ∀ {ms : List String} {p q : Dict}, ms.Nodup → pass f ms p = some q →
    (∀ m ∈ ms, ∃ s r, Dict.get m p = some (.obj s) ∧ f s = some r ∧ Dict.get m q = some (.obj r)) ∧
    ∀ k, k ∉ ms → Dict.get k q = Dict.get k p
  | [], p, q, _, h => by
    simp only [pass, Option.some.injEq] at h
    subst h
    exact ⟨fun m hm => (by cases hm), fun _ _ => rfl⟩
  | m :: ms, p, q, hn, h => by
    rw [List.nodup_cons] at hn
    unfold pass at h
    split at h
    next s hs =>
      rw [Option.bind_eq_some_iff] at h
      obtain ⟨r, h1, h2⟩ := h
      obtain ⟨g1, g2⟩ := pass_spec hn.2 h2
      refine ⟨fun m' hm' => ?_, fun k hk => ?_⟩
      · rcases List.mem_cons.1 hm' with rfl | hm'
        · refine ⟨s, r, hs, h1, ?_⟩
          rw [g2 _ hn.1, Dict.get_put]
          simp
        · obtain ⟨s', r', a, b, c⟩ := g1 m' hm'
          refine ⟨s', r', ?_, b, c⟩
          rw [Dict.get_put] at a
          have : m ≠ m' := fun e => hn.1 (e ▸ hm')
          simpa [this] using a
      · simp only [List.mem_cons, not_or] at hk
        rw [g2 k hk.2, Dict.get_put]
        simp [Ne.symm hk.1]
    next => simp at h

theorem names_keep {f : Dict → Option Dict} {ms : List String} {p q : Dict} (hn : ms.Nodup)
    (hp : names p = some ms) (h : pass f ms p = some q) : names q = some ms := by
  obtain ⟨g1, g2⟩ := pass_spec hn h
  by_cases e : "spectrumModels" ∈ ms
  · obtain ⟨s, r, a, -, -⟩ := g1 _ e
    unfold names at hp
    rw [a] at hp
    simp at hp
  · unfold names at hp ⊢
    rw [g2 _ e]
    exact hp

open Classical in
/-- **C212.** The conversion of the sections: each spectrum model of the list (without repetition) has a section; its
method, line-measurement method and reliability switch become the stages (in that order, after those already there)
and their sections move below their solvers; everything outside the sections of the models is unchanged. -/
theorem C212_sections {p q : Dict} {ms : List String} (hp : names p = some ms) (hn : ms.Nodup)
    (h : restructure p = some q) :
    (∀ k, k ∉ ms → Dict.get k q = Dict.get k p) ∧
    ∀ m ∈ ms, ∃ s r, Dict.get m p = some (.obj s) ∧ Dict.get m q = some (.obj r) ∧
      stages r = stages s
        ++ (if ∃ n ∈ methods, Dict.get "method" s = some (.str n) then [J.str "redshiftSolver"] else [])
        ++ (if ParamV2.isStr "lineMeasSolve" (Dict.get "linemeas_method" s) then [J.str "lineMeasSolver"] else [])
        ++ (if wantsReliability s then [J.str "reliabilitySolver"] else []) ∧
      (∀ n ∈ methods, Dict.get "method" s = some (.str n) → inSolver "method" r = some (.str n)) ∧
      (∀ n ∈ methods, ∀ v, Dict.get n s = some v → inSolver n r = some v) ∧
      (ParamV2.isStr "lineMeasSolve" (Dict.get "linemeas_method" s) = true →
        ∃ v, Dict.get "lineMeasSolve" s = some v ∧ Dict.get "lineMeasSolver" r =
          some (.obj [("method", .str "lineMeasSolve"), ("lineMeasSolve", v)])) ∧
      (wantsReliability s = true → ∃ v, Dict.get "reliabilityModel" s = some v ∧ Dict.get "reliabilitySolver" r =
        some (.obj [("method", .str "deepLearningSolver"), ("deepLearningSolver", .obj [("reliabilityModel", v)])])) ∧
      ∀ k, k ∉ redshiftKeys ++ ["linemeas_method", "lineMeasSolver", "lineMeasSolve", "enable_reliability",
        "reliabilitySolver", "reliabilityModel"] → Dict.get k r = Dict.get k s := by
  unfold restructure part at h
  simp only [hp, Option.bind_some, Option.bind_eq_some_iff] at h
  obtain ⟨p1, h1, p2, ⟨ms1, e1, h2⟩, ms2, e2, h3⟩ := h
  rw [names_keep hn hp h1] at e1
  cases e1
  rw [names_keep hn (names_keep hn hp h1) h2] at e2
  cases e2
  obtain ⟨a1, b1⟩ := pass_spec hn h1
  obtain ⟨a2, b2⟩ := pass_spec hn h2
  obtain ⟨a3, b3⟩ := pass_spec hn h3
  refine ⟨fun k hk => by rw [b3 k hk, b2 k hk, b1 k hk], fun m hm => ?_⟩
  obtain ⟨s, r1, hs, f1, g1⟩ := a1 m hm
  obtain ⟨s2, r2, hs2, f2, g2⟩ := a2 m hm
  rw [g1] at hs2
  cases hs2
  obtain ⟨s3, r, hs3, f3, g3⟩ := a3 m hm
  rw [g2] at hs3
  cases hs3
  obtain ⟨k1, -, v1, t1, u1⟩ := redshiftPart_spec f1
  obtain ⟨k2, -, v2, u2⟩ := linemeasPart_spec f2
  obtain ⟨k3, -, -, v3, u3⟩ := reliabilityPart_spec f3
  have el : Dict.get "linemeas_method" r1 = Dict.get "linemeas_method" s := k1 _ (by decide +kernel)
  have er : wantsReliability r2 = wantsReliability s := by
    unfold wantsReliability
    rw [k2 _ (by decide +kernel), k1 _ (by decide +kernel)]
  have erv : Dict.get "reliabilityModel" r2 = Dict.get "reliabilityModel" s := by
    rw [k2 _ (by decide +kernel), k1 _ (by decide +kernel)]
  have hsol : ∀ k, inSolver k r = inSolver k r1 := by
    intro k
    unfold inSolver
    rw [k3 _ (by decide +kernel), k2 _ (by decide +kernel)]
  rw [el] at v2 u2
  rw [er] at v3 u3
  rw [erv] at v3
  refine ⟨s, r, hs, g3, ?_, ?_, ?_, ?_, ?_, ?_⟩
  · have t3 : stages r = stages r2 ++ (if wantsReliability s then [J.str "reliabilitySolver"] else []) := by
      by_cases e : wantsReliability s = true
      · rw [if_pos e]
        exact (v3 e).1
      · rw [if_neg e, List.append_nil]
        exact (u3 (by simpa using e)).1
    have t2 : stages r2 = stages r1 ++ (if ParamV2.isStr "lineMeasSolve" (Dict.get "linemeas_method" s) then
        [J.str "lineMeasSolver"] else []) := by
      by_cases e : ParamV2.isStr "lineMeasSolve" (Dict.get "linemeas_method" s) = true
      · rw [if_pos e]
        exact (v2 e).1
      · rw [if_neg e, List.append_nil]
        unfold stages
        rw [u2 (by simpa using e) "stages" (by decide +kernel)]
    have t1' : stages r1 = stages s ++ (if ∃ n ∈ methods, Dict.get "method" s = some (.str n) then
        [J.str "redshiftSolver"] else []) := by
      by_cases e : ∃ n ∈ methods, Dict.get "method" s = some (.str n)
      · rw [if_pos e]
        obtain ⟨n, hn1, hn2⟩ := e
        exact (t1 n hn1 hn2).1
      · rw [if_neg e, List.append_nil]
        refine (u1 fun n hn1 hn2 => e ⟨n, hn1, hn2⟩).1
    rw [t3, t2, t1']
  · intro n hn1 hn2
    rw [hsol]
    exact (t1 n hn1 hn2).2
  · intro n hn1 v hv
    rw [hsol]
    exact (v1 n hn1).2 v hv
  · intro e
    obtain ⟨v, a, b⟩ := (v2 e).2
    refine ⟨v, ?_, ?_⟩
    · rw [← a, k1 _ (by decide +kernel)]
    · rw [← b, k3 _ (by decide +kernel)]
  · intro e
    exact (v3 e).2
  · intro k hk
    have c1 : k ∉ redshiftKeys := fun hc => hk (List.mem_append_left _ hc)
    have c0 : k ≠ "stages" := fun hc => c1 (by rw [hc]; decide +kernel)
    simp only [List.mem_append, List.mem_cons, List.not_mem_nil, or_false, not_or] at hk
    obtain ⟨-, c2, c3, c4, c5, c6, c7⟩ := hk
    rw [k3 k (by simp [c0, c5, c6, c7]), k2 k (by simp [c0, c2, c3, c4]), k1 k c1]

/-- A case that meets the hypotheses: two models, one with the three stages, one with none. -/
def sample : Dict :=
  [("spectrumModels", .arr [.str "galaxy", .str "star"]), ("smoothWidth", .num 0),
   ("galaxy", .obj [("method", .str "lineModelSolve"), ("linemeas_method", .str "lineMeasSolve"),
     ("enable_reliability", .bool true), ("reliabilityModel", .str "net"), ("redshiftStep", .num 1),
     ("lineModelSolve", .obj []), ("templateFittingSolve", .null), ("lineMeasSolve", .obj [])]),
   ("star", .obj [("enable_reliability", .bool false), ("method", .null)])]

example : names sample = some ["galaxy", "star"] ∧
    (restructure sample).map (fun q => q.map (·.1)) = some ["spectrumModels", "smoothWidth", "galaxy", "star"] ∧
    ((restructure sample).map fun q => ParamV2.inStages "reliabilitySolver" q "galaxy") = some true ∧
    ((restructure sample).bind fun q => ParamV2.method q "galaxy") = some "lineModelSolve" := by decide +kernel

/-- A method that is not one of the three is dropped without error: the model has no stage, and nothing of it is
solved. -/
theorem C212_unknown_method :
    ((restructure [("spectrumModels", .arr [.str "galaxy"]), ("galaxy", .obj [("method", .str "lineModelSolver"),
      ("lineModelSolver", .obj [])])]).map fun q => (q.map (·.1), ParamV2.inStages "redshiftSolver" q "galaxy",
        ParamV2.method q "galaxy")) = some (["spectrumModels", "galaxy"], false, none) := by decide +kernel

/-- A model without a section, a line measurement without its section, a reliability without its model: the
conversion fails. -/
theorem C212_missing (p : Dict) (m : String) (ms : List String) (hp : names p = some (m :: ms)) (h : Dict.get m p = none) :
    restructure p = none := by
  unfold restructure part
  rw [hp]
  simp only [Option.bind_some, pass, h, Option.bind_none]

theorem C212_missing_linemeas (s : Dict) (h1 : Dict.get "linemeas_method" s = some (.str "lineMeasSolve"))
    (h2 : Dict.get "lineMeasSolve" s = none) : linemeasPart s = none := by
  have : ParamV2.isStr "lineMeasSolve" (some (.str "lineMeasSolve")) = true := by decide +kernel
  unfold linemeasPart
  rw [h1, h2, this]
  rfl

theorem C212_missing_reliability (s : Dict) (h1 : wantsReliability s = true)
    (h2 : Dict.get "reliabilityModel" s = none) : reliabilityPart s = none := by
  unfold wantsReliability at h1
  unfold reliabilityPart
  rw [h1, h2]
  rfl

end ParamV1
end Amazed
