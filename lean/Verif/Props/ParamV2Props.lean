import Verif.Model.ParamV2
import Verif.Model.Rules
import Mathlib.Algebra.Order.Field.Rat

/-!
# C210: what a version-2 parameter file can configure
-/

set_option linter.unusedVariables false
set_option linter.unusedSimpArgs false

namespace Amazed

namespace Dict

theorem get_put (k : String) (v : J) (d : Dict) (j : String) :
    get j (put k v d) = if k = j then some v else get j d := by
  induction d with
  | nil => simp only [put, get]
  | cons e r ih =>
    obtain ⟨k', w⟩ := e
    simp only [put]
    by_cases h : k' = k
    · subst h
      simp only [if_true, get]
      by_cases h2 : k' = j <;> simp [h2]
    · simp only [h, if_false, get, ih]
      by_cases h2 : k' = j
      · subst h2
        simp [Ne.symm h]
      · simp [h2]

theorem get_del (k : String) (d : Dict) (j : String) :
    get j (del k d) = if k = j then none else get j d := by
  induction d with
  | nil => simp [del, get]
  | cons e r ih =>
    obtain ⟨k', w⟩ := e
    simp only [del]
    by_cases h : k' = k
    · subst h
      simp only [if_true, ih, get]
      by_cases h2 : k' = j <;> simp [h2]
    · simp only [h, if_false, get, ih]
      by_cases h2 : k' = j
      · subst h2
        simp [Ne.symm h]
      · simp [h2]

theorem mem_of_get {k : String} {d : Dict} {v : J} (h : get k d = some v) : (k, v) ∈ d := by
  induction d with
  | nil => simp [get] at h
  | cons e r ih =>
    obtain ⟨k', w⟩ := e
    simp only [get] at h
    by_cases h2 : k' = k
    · subst h2
      simp only [if_true, Option.some.injEq] at h
      subst h
      exact List.mem_cons_self ..
    · simp only [h2, if_false] at h
      exact List.mem_cons_of_mem _ (ih h)

theorem get_isSome_of_mem {k : String} {d : Dict} (h : k ∈ d.map (·.1)) : (get k d).isSome := by
  induction d with
  | nil => simp at h
  | cons e r ih =>
    obtain ⟨k', w⟩ := e
    simp only [get]
    by_cases h2 : k' = k
    · simp [h2]
    · simp only [h2, if_false]
      refine ih ?_
      simpa [Ne.symm h2] using h

end Dict

namespace ParamV2

/-! ### Reading a validated value -/

/-- The schema of a property. -/
def sub (k : String) : Sch → Option Sch
  | .mk _ _ _ _ ps _ _ => ps.find k

/-- The schema refuses this key. -/
def refuses (k : String) : Sch → Bool
  | .mk _ _ _ cl ps pt _ => cl && !ps.keys.contains k && !pt.keys.any (begins · k)

/-- The schema at a path of properties. -/
def schAt : List String → Sch → Option Sch
  | [], s => some s
  | k :: ks, s => (sub k s).bind (schAt ks)

theorem okProps_find {ps : SchL} {o : Dict} {k : String} {s : Sch} {v : J} (h : ps.okProps o = true)
    (hf : ps.find k = some s) (hv : Dict.get k o = some v) : s.ok v = true := by
  induction ps using SchL.rec (motive_1 := fun _ => True) with
  | nil => simp [SchL.find] at hf
  | cons k' s' r _ ih =>
    simp only [SchL.okProps, Bool.and_eq_true] at h
    simp only [SchL.find] at hf
    by_cases e : k' = k
    · subst e
      simp only [if_true, Option.some.injEq] at hf
      subst hf
      have h1 := h.1
      rw [hv] at h1
      exact h1
    · simp only [e, if_false] at hf
      exact ih h.2 hf
  | mk => trivial

theorem ok_field {S s : Sch} {j v : J} {k : String} (h : S.ok j = true) (hv : j.field k = some v)
    (hs : sub k S = some s) : s.ok v = true := by
  cases S with
  | mk ty en rq cl ps pt it =>
    cases j with
    | obj o =>
      simp only [Sch.ok, Bool.and_eq_true] at h
      exact okProps_find h.2.1.2 hs hv
    | _ => simp [J.field] at hv

theorem ok_refuses {S : Sch} {j : J} {k : String} (h : S.ok j = true) (hr : refuses k S = true) :
    j.field k = none := by
  cases S with
  | mk ty en rq cl ps pt it =>
    cases j with
    | obj o =>
      simp only [Sch.ok, Bool.and_eq_true] at h
      have hc := h.2.1.1.2
      simp only [refuses, Bool.and_eq_true, Bool.not_eq_true'] at hr
      simp only [closedOk, hr.1.1, Bool.not_true, Bool.false_or, List.all_eq_true] at hc
      cases hg : J.field k (.obj o) with
      | none => rfl
      | some v =>
        have := hc _ (Dict.mem_of_get hg)
        rw [hr.1.2, hr.2] at this
        simp at this
    | _ => rfl

theorem ok_at {S s : Sch} {j v : J} {ks : List String} (h : S.ok j = true) (hv : at_ ks j = some v)
    (hs : schAt ks S = some s) : s.ok v = true := by
  induction ks generalizing S j with
  | nil =>
    simp only [at_, schAt, Option.some.injEq] at hv hs
    subst hv hs
    exact h
  | cons k ks ih =>
    simp only [at_, schAt, Option.bind_eq_some_iff] at hv hs
    obtain ⟨w, hw, hv⟩ := hv
    obtain ⟨t, ht, hs⟩ := hs
    exact ih (ok_field h hw ht) hv hs

theorem at_append (ks ls : List String) (j : J) : at_ (ks ++ ls) j = (at_ ks j).bind (at_ ls) := by
  induction ks generalizing j with
  | nil => rfl
  | cons k ks ih =>
    simp only [List.cons_append, at_]
    cases j.field k with
    | none => rfl
    | some w => exact ih w

theorem ok_at_refuses {S s : Sch} {j : J} {ks : List String} {k : String} (h : S.ok j = true)
    (hs : schAt ks S = some s) (hr : refuses k s = true) : at_ (ks ++ [k]) j = none := by
  rw [at_append]
  cases hv : at_ ks j with
  | none => rfl
  | some w =>
    have := ok_refuses (ok_at h hv hs) hr
    simp [at_, this]

/-! ### The conversion of the keys -/

theorem convStep_inv {raw p q : Dict} {k : String} (h : convStep p k = some q)
    (hp : ∀ j v, Dict.get j p = some v → ∃ k0, Dict.get k0 raw = some v ∧ (k0 = j ∨ hasPat k0 = true)) :
    ∀ j v, Dict.get j q = some v → ∃ k0, Dict.get k0 raw = some v ∧ (k0 = j ∨ hasPat k0 = true) := by
  unfold convStep at h
  by_cases e : hasPat k = true
  · simp only [e, if_true] at h
    cases hg : Dict.get k p with
    | none => simp [hg] at h
    | some w =>
      simp only [hg, Option.some.injEq] at h
      subst h
      intro j v hv
      rw [Dict.get_put, Dict.get_del] at hv
      by_cases e1 : strip k = j
      · simp only [e1, if_true, Option.some.injEq] at hv
        subst hv
        obtain ⟨k0, h1, h2⟩ := hp k w hg
        refine ⟨k0, h1, Or.inr ?_⟩
        rcases h2 with h2 | h2
        · rw [h2, e]
        · exact h2
      · simp only [e1, if_false] at hv
        by_cases e2 : k = j
        · simp [e2] at hv
        · simp only [e2, if_false] at hv
          exact hp j v hv
  · simp only [e, Bool.false_eq_true, if_false, Option.some.injEq] at h
    subst h
    exact hp

theorem convKeys_inv {raw : Dict} {ks : List String} : ∀ {p q : Dict}, convKeys ks p = some q →
    (∀ j v, Dict.get j p = some v → ∃ k0, Dict.get k0 raw = some v ∧ (k0 = j ∨ hasPat k0 = true)) →
    ∀ j v, Dict.get j q = some v → ∃ k0, Dict.get k0 raw = some v ∧ (k0 = j ∨ hasPat k0 = true) := by
  induction ks with
  | nil =>
    intro p q h hp
    simp only [convKeys, Option.some.injEq] at h
    subst h
    exact hp
  | cons k ks ih =>
    intro p q h hp
    simp only [convKeys, Option.bind_eq_some_iff] at h
    obtain ⟨p1, h1, h2⟩ := h
    exact ih h2 (convStep_inv h1 hp)

/-- Every value of the converted parameters is a value of the file, under the same key or under a key with the
prefix. -/
theorem convert_from {raw p : Dict} (h : convert raw = some p) {j : String} {v : J} (hv : Dict.get j p = some v) :
    ∃ k0, Dict.get k0 raw = some v ∧ (k0 = j ∨ hasPat k0 = true) := by
  exact convKeys_inv (raw := raw) h (fun j v h => ⟨j, h, Or.inl rfl⟩) j v hv

/-- The conversion of a Python dict (whose keys are distinct) never raises. -/
theorem convert_total (raw : Dict) (hn : (raw.map (·.1)).Nodup) : (convert raw).isSome := by
  have key : ∀ (ks : List String) (p : Dict), ks.Nodup → (∀ k ∈ ks, (Dict.get k p).isSome) →
      (convKeys ks p).isSome := by
    intro ks
    induction ks with
    | nil => intro p _ _; rfl
    | cons k ks ih =>
      intro p hn hp
      have hk := hp k (List.mem_cons_self ..)
      rw [List.nodup_cons] at hn
      simp only [convKeys, convStep]
      by_cases e : hasPat k = true
      · simp only [e, if_true]
        cases hg : Dict.get k p with
        | none => simp [hg] at hk
        | some w =>
          simp only [Option.bind_some]
          refine ih _ hn.2 ?_
          intro k2 h2
          rw [Dict.get_put, Dict.get_del]
          by_cases e1 : strip k = k2
          · simp [e1]
          · have : k ≠ k2 := fun h => hn.1 (h ▸ h2)
            simp only [e1, if_false, this]
            exact hp k2 (List.mem_cons_of_mem _ h2)
      · simp only [e, Bool.false_eq_true, if_false, Option.bind_some]
        exact ih _ hn.2 (fun k2 h2 => hp k2 (List.mem_cons_of_mem _ h2))
  exact key _ raw hn (fun k hk => Dict.get_isSome_of_mem hk)

theorem convKeys_other {ks : List String} {j : String} (hs : ∀ k ∈ ks, hasPat k = true → strip k ≠ j ∧ k ≠ j) :
    ∀ {p q : Dict}, convKeys ks p = some q → Dict.get j q = Dict.get j p := by
  induction ks with
  | nil =>
    intro p q h
    simp only [convKeys, Option.some.injEq] at h
    rw [h]
  | cons k ks ih =>
    intro p q h
    simp only [convKeys, Option.bind_eq_some_iff] at h
    obtain ⟨p1, h1, h2⟩ := h
    rw [ih (fun k hk => hs k (List.mem_cons_of_mem _ hk)) h2]
    unfold convStep at h1
    by_cases e : hasPat k = true
    · simp only [e, if_true] at h1
      cases hg : Dict.get k p with
      | none => simp [hg] at h1
      | some w =>
        simp only [hg, Option.some.injEq] at h1
        subst h1
        obtain ⟨e1, e2⟩ := hs k (List.mem_cons_self ..) e
        simp [Dict.get_put, Dict.get_del, e1, e2]
    · simp only [e, Bool.false_eq_true, if_false, Option.some.injEq] at h1
      rw [h1]

/-- A parameter outside the model sections is read unchanged, unless the section of a model takes its name. -/
theorem convert_same {raw p : Dict} (h : convert raw = some p) {j : String} (hj : hasPat j = false)
    (hs : ∀ k ∈ raw.map (·.1), hasPat k = true → strip k ≠ j) : Dict.get j p = Dict.get j raw := by
  refine convKeys_other (fun k hk hp => ⟨hs k hk hp, ?_⟩) h
  rintro rfl
  simp [hj] at hp

/-- **C210 (conversion).** The section written `spectrumModel_<m>` is found under `<m>`, unchanged, when no other
section takes that name. -/
theorem convert_section {raw p : Dict} (hn : (raw.map (·.1)).Nodup) (h : convert raw = some p) {k m : String}
    {v : J} (hk : Dict.get k raw = some v) (hp : hasPat k = true) (hm : strip k = m) (hmp : hasPat m = false)
    (hs : ∀ k' ∈ raw.map (·.1), hasPat k' = true → k' ≠ k → strip k' ≠ m ∧ strip k' ≠ k) :
    Dict.get m p = some v := by
  have key : ∀ (ks : List String) (p0 : Dict), ks.Nodup → k ∈ ks →
      (∀ k' ∈ ks, hasPat k' = true → k' ≠ k → strip k' ≠ m ∧ strip k' ≠ k) →
      Dict.get k p0 = some v → convKeys ks p0 = some p → Dict.get m p = some v := by
    intro ks
    induction ks with
    | nil => intro _ _ h; simp at h
    | cons k' ks ih =>
      intro p0 hn hkk hs hg hc
      rw [List.nodup_cons] at hn
      simp only [convKeys, Option.bind_eq_some_iff] at hc
      obtain ⟨p1, h1, h2⟩ := hc
      by_cases ek : k' = k
      · subst ek
        simp only [convStep, hp, if_true, hg, Option.some.injEq] at h1
        have := convKeys_other (j := m) (ks := ks) (fun k2 hk2 hp2 => by
          have ne : k2 ≠ k' := fun h => hn.1 (h ▸ hk2)
          refine ⟨(hs k2 (List.mem_cons_of_mem _ hk2) hp2 ne).1, ?_⟩
          rintro rfl
          simp [hmp] at hp2) h2
        rw [this, ← h1, Dict.get_put]
        simp [hm]
      · have hkk' : k ∈ ks := by
          rcases List.mem_cons.1 hkk with h | h
          · exact absurd h.symm ek
          · exact h
        refine ih p1 hn.2 hkk' (fun k2 hk2 => hs k2 (List.mem_cons_of_mem _ hk2)) ?_ h2
        unfold convStep at h1
        by_cases e : hasPat k' = true
        · simp only [e, if_true] at h1
          cases hg' : Dict.get k' p0 with
          | none => simp [hg'] at h1
          | some w =>
            simp only [hg', Option.some.injEq] at h1
            obtain ⟨_, e2⟩ := hs k' (List.mem_cons_self ..) e ek
            rw [← h1, Dict.get_put, Dict.get_del]
            simp [e2, ek, hg]
        · simp only [e, Bool.false_eq_true, if_false, Option.some.injEq] at h1
          rw [← h1, hg]
  refine key _ raw hn ?_ hs hk h
  exact List.mem_map.2 ⟨_, Dict.mem_of_get hk, rfl⟩

/-- A case that meets the hypotheses: two models and a general parameter. -/
example : ((convert [("smoothWidth", .num 1), ("spectrumModel_galaxy", .str "g"), ("spectrumModel_qso", .str "q")]).map
    fun p => (p.map (·.1))) = some ["smoothWidth", "galaxy", "qso"] := by decide +kernel

/-- Two section names that differ only by the number of prefixes collide: one section is lost, without error. -/
theorem C210_collision_counterexample :
    ((convert [("spectrumModel_a", .str "1"), ("spectrumModel_spectrumModel_a", .str "2")]).map
      fun p => p.map (·.1)) = some ["a"] := by decide +kernel

/-! ### What an accepted file contains -/

/-- The `required` names of a schema. -/
def reqs : Sch → List String
  | .mk _ _ rq _ _ _ _ => rq

/-- The `type` of a schema. -/
def tys : Sch → List Ty
  | .mk ty _ _ _ _ _ _ => ty

theorem ok_tys {S : Sch} {j : J} (h : S.ok j = true) : tyOk (tys S) j = true := by
  cases S with
  | mk ty en rq cl ps pt it =>
    simp only [Sch.ok, Bool.and_eq_true] at h
    exact h.1.1

theorem ok_req {S : Sch} {o : Dict} {k : String} (h : S.ok (.obj o) = true) (hk : k ∈ reqs S) :
    (J.field k (.obj o)).isSome := by
  cases S with
  | mk ty en rq cl ps pt it =>
    simp only [Sch.ok, Bool.and_eq_true] at h
    have := h.2.1.1.1
    simp only [reqOk, List.all_eq_true] at this
    exact this k hk

/-- A schema that requires a name it does not allow has no object. -/
theorem unsat_of {S : Sch} {j : J} {k : String} (ht : ∀ j, tyOk (tys S) j = true → ∃ o, j = .obj o)
    (hk : k ∈ reqs S) (hr : refuses k S = true) : S.ok j = false := by
  cases h : S.ok j with
  | false => rfl
  | true =>
    obtain ⟨o, rfl⟩ := ht j (ok_tys h)
    have h1 := ok_req h hk
    rw [ok_refuses h hr] at h1
    simp at h1

theorem obj_of {j : J} (h : tyOk [.object] j = true) : ∃ o, j = .obj o := by
  cases j with
  | obj o => exact ⟨o, rfl⟩
  | _ => simp [tyOk, Ty.has] at h

/-- The names the schema gives to the parameters outside the model sections. -/
def generalNames : List String :=
  ["version", "calibrationDir", "multiObsMethod", "lambdaRange", "airvacuumMethod", "extremaRedshiftSeparation",
   "smoothWidth", "autoCorrectInput", "spectrumModels", "photometryTransmissionDir", "photometryBand", "filters",
   "additionalCols", "lsf", "ebmv", "templateCatalog", "continuumRemoval"]

/-- In a file accepted by the schema every key is a general parameter or begins with `spectrumModel_`, and the value
of the latter is a model section. -/
theorem accepted_key {raw : Dict} (h : SchemaV2.general.ok (.obj raw) = true) {k : String} {v : J}
    (hk : Dict.get k raw = some v) :
    (k ∈ generalNames ∧ hasPat k = false) ∨ SchemaV2.spectrumModel.ok v = true := by
  unfold SchemaV2.general at h
  simp only [Sch.ok, Bool.and_eq_true] at h
  have hc := h.2.1.1.2
  have hp := h.2.2
  simp only [closedOk, Bool.not_true, Bool.false_or, List.all_eq_true] at hc
  have hm := Dict.mem_of_get hk
  have h1 := hc _ hm
  simp only [SchL.okPats, Bool.and_true, List.all_eq_true] at hp
  have h2 := hp _ hm
  rw [Bool.or_eq_true] at h1
  rcases h1 with h1 | h1
  · left
    have h3 : k ∈ generalNames := by
      rw [List.contains_iff_mem] at h1
      exact h1
    refine ⟨h3, ?_⟩
    have : ∀ k ∈ generalNames, hasPat k = false := by decide +kernel
    exact this k h3
  · right
    simp only [SchL.keys, List.any_cons, List.any_nil, Bool.or_false] at h1
    simpa [h1] using h2

/-- What the converted parameters hold at a name: a general parameter of the file, or a model section. -/
theorem converted_key {raw p : Dict} (h : SchemaV2.general.ok (.obj raw) = true) (hc : convert raw = some p)
    {j : String} {v : J} (hj : Dict.get j p = some v) :
    (j ∈ generalNames ∧ Dict.get j raw = some v) ∨ SchemaV2.spectrumModel.ok v = true := by
  obtain ⟨k0, h1, h2⟩ := convert_from hc hj
  rcases accepted_key h h1 with h3 | h3
  · rcases h2 with h2 | h2
    · subst h2
      exact Or.inl ⟨h3.1, h1⟩
    · simp [h3.2] at h2
  · exact Or.inr h3

theorem build_some {rest : Dict → Bool} {raw p : Dict} (h : build rest raw = some p) :
    SchemaV2.general.ok (.obj raw) = true ∧ convert raw = some p ∧ chkLsf p = true ∧
      (∀ m ∈ models p, chkTpl p m = true ∧ chkLya p m = true) ∧ rest p = true := by
  unfold build at h
  by_cases e : SchemaV2.general.ok (.obj raw) = true
  · simp only [e, if_true, Option.bind_eq_some_iff] at h
    obtain ⟨q, h1, h2⟩ := h
    split at h2
    next hh =>
      simp only [Option.some.injEq] at h2
      subst h2
      simp only [Bool.and_eq_true, List.all_eq_true] at hh
      exact ⟨e, h1, hh.1.1, hh.1.2, hh.2⟩
    next => simp at h2
  · simp [e] at h

/-- **C210 (proved part).** In the parameters of an accepted version-2 file the section of a model (whose name is not
the name of a general parameter) satisfies the schema of the model sections. -/
theorem C210_partial {rest : Dict → Bool} {raw p : Dict} (h : build rest raw = some p) {m : String} {v : J}
    (hm : m ∉ generalNames) (hv : Dict.get m p = some v) : SchemaV2.spectrumModel.ok v = true := by
  obtain ⟨h1, h2, -⟩ := build_some h
  rcases converted_key h1 h2 hv with h3 | h3
  · exact absurd h3.1 hm
  · exact h3

theorem inModel_none {rest : Dict → Bool} {raw p : Dict} (h : build rest raw = some p) {m : String}
    (hm : m ∉ generalNames) {ks : List String} {k : String} {s : Sch} (hs : schAt ks SchemaV2.spectrumModel = some s)
    (hr : refuses k s = true) : inModel p m (ks ++ [k]) = none := by
  unfold inModel at_
  cases hv : J.field m (.obj p) with
  | none => rfl
  | some v => exact ok_at_refuses (C210_partial h hm hv) hs hr

theorem inModel_ok {rest : Dict → Bool} {raw p : Dict} (h : build rest raw = some p) {m : String}
    (hm : m ∉ generalNames) {ks : List String} {s : Sch} {v : J} (hs : schAt ks SchemaV2.spectrumModel = some s)
    (hv : inModel p m ks = some v) : s.ok v = true := by
  unfold inModel at_ at hv
  rw [Option.bind_eq_some_iff] at hv
  obtain ⟨w, h1, h2⟩ := hv
  exact ok_at (C210_partial h hm h1) h2 hs

/-- No accepted version-2 file configures the conversion of wavelengths from air to vacuum: the schema spells the key
`airvacuumMethod`, the reader asks `airVacuumMethod`. -/
theorem C210_airvacuum {rest : Dict → Bool} {raw p : Dict} (h : build rest raw = some p) (s : String) :
    airVac p ≠ some (.str s) := by
  intro hv
  simp only [airVac, at_, Option.bind_eq_some_iff, Option.some.injEq] at hv
  obtain ⟨w, h1, h2⟩ := hv
  subst h2
  have := C210_partial h (m := "airVacuumMethod") (by decide +kernel) h1
  have h3 := ok_tys this
  simp [tys, SchemaV2.spectrumModel, tyOk, Ty.has] at h3

/-- No accepted version-2 file configures a line measurement: the schema of `lineMeasSolver` does not allow the key
`method`, and the window and step of the redshift are spelt differently. -/
theorem C210_linemeas {rest : Dict → Bool} {raw p : Dict} (h : build rest raw = some p) {m : String}
    (hm : m ∉ generalNames) : lmMethod p m = none ∧ inModel p m ["lineMeasDzHalf"] = none ∧
      inModel p m ["lineMeasRedshiftStep"] = none := by
  refine ⟨?_, inModel_none h hm (ks := []) rfl (by decide +kernel), inModel_none h hm (ks := []) rfl (by decide +kernel)⟩
  unfold lmMethod
  split
  · exact inModel_none h hm (ks := ["lineMeasSolver"]) (s := SchemaV2.linemeasSolver) rfl (by decide +kernel)
  · rfl

/-- No accepted version-2 file uses the line spread function of variable width: its file name is spelt differently in
the schema, and the custom check asks for it. -/
theorem C210_lsf {rest : Dict → Bool} {raw p : Dict} (h : build rest raw = some p) :
    at_ ["lsf", "lsfType"] (.obj p) ≠ some (.str "gaussianVariableWidth") := by
  obtain ⟨h1, h2, h3, -⟩ := build_some h
  intro hv
  unfold chkLsf at h3
  rw [hv] at h3
  have hs : isStr "gaussianVariableWidth" (some (.str "gaussianVariableWidth")) = true := by decide +kernel
  simp only [dep, hs, Bool.not_true, Bool.false_or] at h3
  rw [at_] at h3
  cases hg : J.field "lsf" (.obj p) with
  | none => rw [hg] at h3; simp at h3
  | some w =>
    rw [hg] at h3
    simp only [Option.bind_some] at h3
    have hw : J.field "gaussianVariableWidthFileName" w = none := by
      rcases converted_key h1 h2 hg with h4 | h4
      · have : SchemaV2.lsf.ok w = true := ok_field h1 h4.2 (k := "lsf") rfl
        exact ok_refuses this (by decide +kernel)
      · exact ok_refuses h4 (by decide +kernel)
    rw [at_, hw] at h3
    simp at h3

/-- The schema of the template-fitting solver accepts no value: it types `fftProcessing`, which it requires, with a
word that is no JSON-Schema type. -/
theorem C210_templateFitting_schema (j : J) : SchemaV2.templateFittingSolve.ok j = false := by
  cases h : SchemaV2.templateFittingSolve.ok j with
  | false => rfl
  | true =>
    obtain ⟨o, rfl⟩ := obj_of (ok_tys h)
    have h1 := ok_req h (k := "fftProcessing") (by decide +kernel)
    cases hv : J.field "fftProcessing" (.obj o) with
    | none => rw [hv] at h1; simp at h1
    | some v =>
      have h2 := ok_tys (ok_field h hv rfl)
      cases v <;> simp [tys, tyOk, Ty.has] at h2

/-- No accepted version-2 file chooses template fitting for one of its spectrum models. -/
theorem C210_templateFitting {rest : Dict → Bool} {raw p : Dict} (h : build rest raw = some p) {m : String}
    (hm : m ∉ generalNames) (hl : m ∈ models p) : method p m ≠ some "templateFittingSolve" := by
  obtain ⟨-, -, -, h4, -⟩ := build_some h
  intro he
  have hc := (h4 m hl).1
  unfold chkTpl at hc
  rw [he] at hc
  simp only [dep, BEq.rfl, Bool.not_true, Bool.false_or] at hc
  cases hv : inModel p m ["redshiftSolver", "templateFittingSolve"] with
  | none => rw [hv] at hc; simp at hc
  | some v =>
    have := inModel_ok h hm (s := SchemaV2.templateFittingSolve) rfl hv
    rw [C210_templateFitting_schema] at this
    simp at this

/-- The schema of the asymmetric profile accepts no value: it requires two keys that it spells differently in its
properties. -/
theorem C210_asym_schema : ∃ s, schAt ["redshiftSolver", "lineModelSolve", "lineModel", "lya", "asymProfile"]
    SchemaV2.spectrumModel = some s ∧ ∀ j, s.ok j = false :=
  ⟨_, rfl, fun j => unsat_of (k := "switchFixedToFit") (fun j hj => obj_of hj) (by decide +kernel) (by decide +kernel)⟩

/-- No accepted version-2 file runs the line model with the asymmetric Lyman-alpha profile. -/
theorem C210_asym {rest : Dict → Bool} {raw p : Dict} (h : build rest raw = some p) {m : String}
    (hm : m ∉ generalNames) (hl : m ∈ models p) (hmeth : method p m = some "lineModelSolve") :
    inModel p m ["redshiftSolver", "lineModelSolve", "lineModel", "lya", "profile"] ≠ some (.str "asym") := by
  obtain ⟨-, -, -, h4, -⟩ := build_some h
  intro he
  have hc := (h4 m hl).2
  unfold chkLya at hc
  have hs : isStr "asym" (some (.str "asym")) = true := by decide +kernel
  rw [hmeth, he] at hc
  simp only [dep, BEq.rfl, if_true, hs, Bool.not_true, Bool.false_or] at hc
  cases hv : inModel p m ["redshiftSolver", "lineModelSolve", "lineModel", "lya", "asymProfile"] with
  | none => rw [hv] at hc; simp at hc
  | some v =>
    obtain ⟨s, hs, hn⟩ := C210_asym_schema
    have := inModel_ok h hm hs hv
    rw [hn] at this
    simp at this

/-- In an accepted version-2 file the catalogue of the priors, which the line model reads as `catalogDirPath`
(continuummanager.cpp:47, tplratiomanager.cpp:84), is never there. -/
theorem C210_priors {rest : Dict → Bool} {raw p : Dict} (h : build rest raw = some p) {m : String}
    (hm : m ∉ generalNames) :
    inModel p m ["redshiftSolver", "lineModelSolve", "lineModel", "continuumFit", "priors", "catalogDirPath"] = none ∧
    inModel p m ["redshiftSolver", "lineModelSolve", "lineModel", "tplRatio", "priors", "catalogDirPath"] = none :=
  ⟨inModel_none h hm (ks := ["redshiftSolver", "lineModelSolve", "lineModel", "continuumFit", "priors"])
    (s := SchemaV2.lineModelPriors) rfl (by decide +kernel),
   inModel_none h hm (ks := ["redshiftSolver", "lineModelSolve", "lineModel", "tplRatio", "priors"])
    (s := SchemaV2.lineModelPriors) rfl (by decide +kernel)⟩

/-- In an accepted version-2 file the Balmer rule cannot be chosen alone: whatever the value of `rules` other than
`all`, and other than `no`, the rules on two lines are disabled. -/
theorem C210_balmer {rest : Dict → Bool} {raw p : Dict} (h : build rest raw = some p) {m s : String}
    (hm : m ∉ generalNames)
    (hv : inModel p m ["redshiftSolver", "lineModelSolve", "lineModel", "rules"] = some (.str s))
    (ha : s ≠ "all") (hn : s ≠ "no") :
    ∀ r ∈ Rules.setRulesOption (K := ℚ) s [], r.kind.name = "balmersingle" → r.enabled = false := by
  have hsch : ∃ sc, schAt ["redshiftSolver", "lineModelSolve", "lineModel", "rules"] SchemaV2.spectrumModel = some sc ∧
      ∀ s, sc.ok (.str s) = true → s ∈ ["all", "no", "strongWeak", "balmerSingle", "ratioRange"] := by
    refine ⟨_, rfl, ?_⟩
    intro s hs
    simp only [Sch.ok, enOk, Bool.and_eq_true] at hs
    have := hs.1.2
    simpa using this
  obtain ⟨sc, h1, h2⟩ := hsch
  have h3 := h2 s (inModel_ok h hm h1 hv)
  simp only [List.mem_cons, ha, hn, List.not_mem_nil, or_false, false_or] at h3
  rcases h3 with rfl | rfl | rfl <;> decide +kernel

/-- A file that is accepted: one spectrum model solved by the combination of templates, one by the line model with
the Lyman-alpha profile of the intergalactic medium. -/
def sample : Dict :=
  [("version", .num 2), ("multiObsMethod", .str ""), ("lambdaRange", .arr [.num 12000, .num 18000]),
   ("extremaRedshiftSeparation", .num (1 / 100)), ("smoothWidth", .num 0), ("autoCorrectInput", .bool false),
   ("spectrumModels", .arr [.str "galaxy", .str "qso"]), ("airvacuumMethod", .str "morton2000"),
   ("spectrumModel_galaxy", .obj [("stages", .arr [.str "redshiftSolver", .str "lineMeasSolver"]),
     ("redshiftRange", .arr [.num 0, .num 1]), ("redshiftStep", .num (1 / 1000)), ("redshiftSampling", .str "log"),
     ("templateDir", .str "templates"),
     ("redshiftSolver", .obj [("method", .str "tplCombinationSolve"), ("tplCombinationSolve", .obj
       [("overlapThreshold", .num 1), ("spectrum", .obj [("component", .str "raw")]), ("interpolation", .str "lin"),
        ("extremaCount", .num 5), ("igmFit", .bool false), ("ismFit", .bool false), ("pdfCombination", .str "marg")])])]),
   ("spectrumModel_qso", .obj [("stages", .arr []),
     ("redshiftRange", .arr [.num 0, .num 1]), ("redshiftStep", .num (1 / 1000)), ("redshiftSampling", .str "log"),
     ("templateDir", .str "templates"), ("redshiftSolver", .obj [("method", .str "lineModelSolve"), ("lineModelSolve", .obj [("lineModel",
       .obj [("improveBalmerFit", .bool false), ("lineCatalog", .str "x"), ("lineTypeFilter", .str "E"),
       ("lineForceFilter", .str "W"), ("fittingMethod", .str "individual"), ("lineWidthType", .str
       "combined"), ("velocityEmission", .num 1), ("velocityAbsorption", .num 1), ("velocityFit", .bool
       false), ("lbdaOffsetFit", .bool false), ("ampOffsetFit", .bool false), ("skipSecondPass", .bool false),
       ("extremaCount", .num 1), ("extremaCutProbaThreshold", .num 1), ("lineRatioType", .str "rules"),
       ("continuumComponent", .str "tplFit"), ("strongLinesPrior", .num 1), ("euclidNHaemittersStrength", .num
       1), ("pdfCombination", .str "bestChi2"), ("nSigmaSupport", .num 1), ("haPrior", .num 1),
       ("extremaCountB", .num 1), ("enablePhotometry", .bool false), ("lya", .obj [("profile", .str "igm")]),
       ("firstPass", .obj [("fittingMethod", .str "hybrid"), ("largeGridStepRatio", .num 1),
       ("multipleContinuumFitDisable", .bool false), ("extremaCount", .num 1)]), ("secondPassLcFittingMethod",
       .str "-1"), ("secondPass", .obj [("continuumFit", .str "fromFirstPass"), ("halfWindowSize", .num 1)]),
       ("pdf", .obj []), ("tplRatio", .obj [("priors", .obj [("betaA", .num 1), ("betaTE", .num 1), ("betaZ",
       .num 1), ("catalogDirpath", .str "x")])]), ("rules", .str "balmerSingle"), ("continuumFit", .obj
       [("fftProcessing", .bool false), ("ismFit", .bool false), ("igmFit", .bool false), ("count", .num 1),
       ("ignoreLineSupport", .bool false), ("negativeThreshold", .num 1), ("nullThreshold", .num 1),
       ("priors", .obj [("betaA", .num 1), ("betaTE", .num 1), ("betaZ", .num 1), ("catalogDirpath", .str
       "x")])])])])])])]

example : (build (fun _ => true) sample).isSome ∧
    ((build (fun _ => true) sample).bind fun p => method p "galaxy") = some "tplCombinationSolve" ∧
    ((build (fun _ => true) sample).map fun p => models p) = some ["galaxy", "qso"] ∧
    ((build (fun _ => true) sample).map fun p => inStages "lineMeasSolver" p "galaxy") = some true ∧
    ((build (fun _ => true) sample).bind fun p => method p "qso") = some "lineModelSolve" ∧
    ((build (fun _ => true) sample).map fun p => isStr "balmerSingle"
      (inModel p "qso" ["redshiftSolver", "lineModelSolve", "lineModel", "rules"])) = some true := by
  decide +kernel

/-- C210: a stage is one of those of the model when the list `stages` of its section has it. -/
theorem C210_stage (stage : String) (p : Dict) (m : String) :
    inStages stage p m = true ↔ ∃ l, inModel p m ["stages"] = some (.arr l) ∧ .str stage ∈ l := by
  have hs : ∀ l : List J, (strs l).contains stage = true ↔ .str stage ∈ l := by
    intro l
    rw [List.contains_iff_mem]
    induction l with
    | nil => simp [strs]
    | cons j r ih =>
      cases j with
      | str t =>
        have e : strs (.str t :: r) = t :: strs r := rfl
        rw [e, List.mem_cons, List.mem_cons, ih, J.str.injEq]
      | _ => rw [List.mem_cons, ← ih]; simp [strs]
  unfold inStages
  split
  · next l hl => rw [hs, hl]; simp
  · next hne =>
    constructor
    · intro h; cases h
    · rintro ⟨l, hl, -⟩; exact absurd hl (hne l)

end ParamV2
end Amazed
