import Verif.Model.AboveSnr
import Verif.Props.DirIntMain
import Mathlib.Tactic.NormNum

set_option linter.unusedVariables false
set_option linter.unusedSectionVars false

/-! # C170: the strong lines above a signal to noise ratio -/

namespace Amazed
namespace AboveSnr

variable {K : Type} [Field K] [LinearOrder K] [IsStrictOrderedRing K]

/-! ## Specification -/

/-- Element `e` has as line `k` the first line of the list called `tag`, no element before `e` has it, that line is an emission line and it is in the range. -/
def Usable (env : Env K) (tag : String) (p : Nat × Nat) : Prop :=
  ∃ (pre post : List Ln) (l : Ln) (ids : List Int), env.rest = pre ++ l :: post ∧ (∀ q ∈ pre, q.name ≠ tag) ∧ l.name = tag ∧ l.em = true ∧
    env.elts[p.1]? = some ids ∧ ids[p.2]? = some l.id ∧ (∀ (k : Nat) (i : Int), k < p.2 → ids[k]? = some i → i ≠ l.id) ∧
    (∀ (e : Nat) (m : List Int), e < p.1 → env.elts[e]? = some m → l.id ∉ m) ∧ env.outside p.1 p.2 = false

/-- The flux of the lines `ls`, integrated together, is more than `cut` times its error. -/
def Above (sq : K → K) (env : Env K) (cut : K) (ls : List (Nat × Nat)) (sub : Bool) : Prop :=
  ∃ f v, env.flux (ls.map (·.1)) (ls.map (·.2)) sub = .ok (f, v) ∧ 0 < v ∧ cut < |f| / sq v

/-- A single line. -/
def Single (sq : K → K) (env : Env K) (cut : K) (tag : String) : Prop := ∃ p, Usable env tag p ∧ Above sq env cut [p] true

/-- A doublet: its first line alone, or the usable lines of both names together. -/
def Doublet (sq : K → K) (env : Env K) (cut : K) (a b : String) : Prop :=
  (∃ p, Usable env a p ∧ Above sq env cut [p] false) ∨
  (∃ q, Usable env b q ∧ ((∃ p, Usable env a p ∧ Above sq env cut [p, q] false) ∨ ((∀ p, ¬ Usable env a p) ∧ Above sq env cut [q] false)))

/-! ## Proofs -/

theorem findElt_iff (elts : List (List Int)) (id : Int) (p : Nat × Nat) : findElt elts id = some p ↔
    ∃ ids, elts[p.1]? = some ids ∧ ids[p.2]? = some id ∧ (∀ (k : Nat) (i : Int), k < p.2 → ids[k]? = some i → i ≠ id) ∧
      ∀ (e : Nat) (m : List Int), e < p.1 → elts[e]? = some m → id ∉ m := by
  have hin : ∀ m : List Int, (m.findIdx? (· == id)).isSome = true ↔ id ∈ m := by
    intro m
    rw [List.findIdx?_isSome]
    simp
  unfold findElt
  rw [Option.bind_eq_some_iff]
  constructor
  · rintro ⟨i, h1, h2⟩
    rw [Option.bind_eq_some_iff] at h2
    obtain ⟨ids, h2, h3⟩ := h2
    rw [Option.map_eq_some_iff] at h3
    obtain ⟨k, h3, rfl⟩ := h3
    rw [List.findIdx?_eq_some_iff_getElem] at h1 h3
    obtain ⟨a1, a2, a3⟩ := h1
    obtain ⟨b1, b2, b3⟩ := h3
    refine ⟨ids, h2, by rw [List.getElem?_eq_getElem b1]; simpa using b2, ?_, ?_⟩
    · intro j x hj hx
      obtain ⟨hl, rfl⟩ := List.getElem?_eq_some_iff.1 hx
      simpa using b3 j hj
    · intro e m he hm hid
      obtain ⟨hl, rfl⟩ := List.getElem?_eq_some_iff.1 hm
      exact a3 e he ((hin _).2 hid)
  · rintro ⟨ids, h1, h2, h3, h4⟩
    obtain ⟨l1, e1⟩ := List.getElem?_eq_some_iff.1 h1
    obtain ⟨l2, e2⟩ := List.getElem?_eq_some_iff.1 h2
    refine ⟨p.1, ?_, ?_⟩
    · rw [List.findIdx?_eq_some_iff_getElem]
      refine ⟨l1, ?_, fun j hj => ?_⟩
      · rw [e1]
        exact (hin ids).2 (List.mem_of_getElem? h2)
      · rw [hin]
        exact h4 j _ hj (List.getElem?_eq_getElem (by omega))
    · rw [h1]
      simp only [Option.bind_some]
      rw [Option.map_eq_some_iff]
      refine ⟨p.2, ?_, rfl⟩
      rw [List.findIdx?_eq_some_iff_getElem]
      refine ⟨l2, by simpa using e2, fun j hj => ?_⟩
      simpa using h3 j _ hj (List.getElem?_eq_getElem (by omega))

theorem usable_iff (env : Env K) (tag : String) (p : Nat × Nat) : usable env tag = some p ↔ Usable env tag p := by
  unfold usable Usable
  rw [Option.bind_eq_some_iff]
  constructor
  · rintro ⟨l, h1, h2⟩
    rw [List.find?_eq_some_iff_append] at h1
    obtain ⟨h1, pre, post, h3, h4⟩ := h1
    split at h2
    · cases h2
    rename_i hem
    rw [Option.bind_eq_some_iff] at h2
    obtain ⟨q, h5, h6⟩ := h2
    split at h6
    · cases h6
    rename_i ho
    cases h6
    obtain ⟨ids, g1, g2, g3, g4⟩ := (findElt_iff _ _ _).1 h5
    exact ⟨pre, post, l, ids, h3, fun q hq => by simpa using h4 q hq, by simpa using h1, by simpa using hem, g1, g2, g3, g4, by simpa using ho⟩
  · rintro ⟨pre, post, l, ids, h3, h4, h1, hem, g1, g2, g3, g4, ho⟩
    refine ⟨l, ?_, ?_⟩
    · rw [List.find?_eq_some_iff_append]
      exact ⟨by simpa using h1, pre, post, h3, fun q hq => by simpa using h4 q hq⟩
    · rw [if_neg (by simp [hem]), (findElt_iff _ _ _).2 ⟨ids, g1, g2, g3, g4⟩]
      simp [ho]

theorem isAbove_iff {sq : K → K} {cut : K} {f : K × K} : isAbove sq cut f = true ↔ 0 < f.2 ∧ cut < |f.1| / sq f.2 := by
  unfold isAbove
  simp

/-- The lines added to a doublet by a name. -/
def added (env : Env K) (tag : String) (g : Group) : List (Nat × Nat) := if groupOf tag = g then (usable env tag).toList else []

theorem step_spec {sq : K → K} {env : Env K} {cut : K} {t : String × String} {s s' : St} (h : step sq env cut t s = .ok s') :
    s'.oii = s.oii ++ added env t.1 .oii ∧ s'.ciii = s.ciii ++ added env t.1 .ciii ∧
    ∀ n, n ∈ s'.names ↔ n ∈ s.names ∨ (n = t.2 ∧ ∃ p, usable env t.1 = some p ∧
      Above sq env cut (match groupOf t.1 with | .single => [p] | .oii => s.oii ++ [p] | .ciii => s.ciii ++ [p]) (decide (groupOf t.1 = .single))) := by
  unfold step at h
  cases hu : usable env t.1 with
  | none =>
    rw [hu] at h
    cases h
    refine ⟨by simp [added, hu], by simp [added, hu], fun n => by simp⟩
  | some p =>
    rw [hu] at h
    simp only at h
    obtain ⟨g, -, h⟩ := Res.bind_eq_ok.1 h
    obtain ⟨f, h2, h⟩ := Res.bind_eq_ok.1 h
    have key : ∀ (ls : List (Nat × Nat)) (sub : Bool), env.flux (ls.map (·.1)) (ls.map (·.2)) sub = .ok f → (isAbove sq cut f = true ↔ Above sq env cut ls sub) := by
      intro ls sub hf
      rw [isAbove_iff]
      constructor
      · rintro ⟨a, b⟩
        exact ⟨f.1, f.2, hf, a, b⟩
      · rintro ⟨a, b, c, d, e⟩
        rw [hf] at c
        cases c
        exact ⟨d, e⟩
    have hs := Res.ok.inj h
    clear h
    rename_i h0 h1
    clear h0 h1
    cases hg : groupOf t.1 <;> rw [hg] at h2 hs <;> simp only at h2 hs <;> have hk := key _ _ h2 <;> by_cases hb : isAbove sq cut f = true
    all_goals first | rw [if_pos hb] at hs | rw [if_neg hb] at hs
    all_goals subst hs
    all_goals simp only [hb, true_iff, false_iff, Bool.false_eq_true] at hk
    all_goals simp only [decide_true, decide_false, reduceCtorEq] at hk
    all_goals simp [added, hg, hu, hk, or_comm]

/-- **C170** Whenever the search of the strong lines above a signal to noise ratio returns: a single line is reported exactly when it is usable and its integrated flux is above
the ratio; a doublet exactly when its first line is usable and above the ratio alone, or its second line is usable and the usable lines of the doublet, integrated together, are
above the ratio. No other name is reported. -/
theorem C170_above {sq : K → K} {env : Env K} {cut : K} {r : List String} (h : linesAbove sq env cut = .ok r) :
    ("Ha" ∈ r ↔ Single sq env cut "Halpha") ∧ ("OIIIa" ∈ r ↔ Single sq env cut "[OIII]a") ∧ ("Hb" ∈ r ↔ Single sq env cut "Hbeta") ∧ ("Lya" ∈ r ↔ Single sq env cut "LyAE") ∧
    ("OII" ∈ r ↔ Doublet sq env cut "[OII]3726" "[OII]3729") ∧ ("CIII" ∈ r ↔ Doublet sq env cut "[CIII]1907" "[CIII]1909") ∧
    ∀ n ∈ r, n ∈ ["Ha", "OIIIa", "Hb", "Lya", "OII", "CIII"] := by
  unfold linesAbove table at h
  simp only [EltList.foldL] at h
  obtain ⟨s8, h0, h⟩ := Res.bind_eq_ok.1 h
  cases h
  obtain ⟨s1, h1, h0⟩ := Res.bind_eq_ok.1 h0
  obtain ⟨s2, h2, h0⟩ := Res.bind_eq_ok.1 h0
  obtain ⟨s3, h3, h0⟩ := Res.bind_eq_ok.1 h0
  obtain ⟨s4, h4, h0⟩ := Res.bind_eq_ok.1 h0
  obtain ⟨s5, h5, h0⟩ := Res.bind_eq_ok.1 h0
  obtain ⟨s6, h6, h0⟩ := Res.bind_eq_ok.1 h0
  obtain ⟨s7, h7, h0⟩ := Res.bind_eq_ok.1 h0
  obtain ⟨s9, h8, h0⟩ := Res.bind_eq_ok.1 h0
  cases h0
  have g1 : groupOf "Halpha" = .single := by decide +kernel
  have g2 : groupOf "[OIII]a" = .single := by decide +kernel
  have g3 : groupOf "Hbeta" = .single := by decide +kernel
  have g4 : groupOf "LyAE" = .single := by decide +kernel
  have g5 : groupOf "[OII]3726" = .oii := by decide +kernel
  have g6 : groupOf "[OII]3729" = .oii := by decide +kernel
  have g7 : groupOf "[CIII]1907" = .ciii := by decide +kernel
  have g8 : groupOf "[CIII]1909" = .ciii := by decide +kernel
  obtain ⟨a1, b1, c1⟩ := step_spec h1
  obtain ⟨a2, b2, c2⟩ := step_spec h2
  obtain ⟨a3, b3, c3⟩ := step_spec h3
  obtain ⟨a4, b4, c4⟩ := step_spec h4
  obtain ⟨a5, b5, c5⟩ := step_spec h5
  obtain ⟨a6, b6, c6⟩ := step_spec h6
  obtain ⟨a7, b7, c7⟩ := step_spec h7
  obtain ⟨a8, b8, c8⟩ := step_spec h8
  simp only [added, g1, g2, g3, g4, g5, g6, g7, g8, reduceCtorEq, if_false, if_true, List.append_nil, List.nil_append, decide_true, decide_false] at *
  rw [a3, a2, a1] at a4
  rw [b6, b5, b4, b3, b2, b1] at b7
  rw [a4] at a5
  simp only [a4, a5, b1, b2, b3, b4, b5, b6, b7, List.nil_append] at c5 c6 c7 c8
  have hall : ∀ n, n ∈ s8.names ↔ (((((((n = "Ha" ∧ Single sq env cut "Halpha") ∨ (n = "OIIIa" ∧ Single sq env cut "[OIII]a")) ∨ (n = "Hb" ∧ Single sq env cut "Hbeta")) ∨
      (n = "Lya" ∧ Single sq env cut "LyAE")) ∨ (n = "OII" ∧ ∃ p, usable env "[OII]3726" = some p ∧ Above sq env cut [p] false)) ∨
      (n = "OII" ∧ ∃ p, usable env "[OII]3729" = some p ∧ Above sq env cut ((usable env "[OII]3726").toList ++ [p]) false)) ∨
      (n = "CIII" ∧ ∃ p, usable env "[CIII]1907" = some p ∧ Above sq env cut [p] false)) ∨
      (n = "CIII" ∧ ∃ p, usable env "[CIII]1909" = some p ∧ Above sq env cut ((usable env "[CIII]1907").toList ++ [p]) false) := by
    intro n
    rw [c8, c7, c6, c5, c4, c3, c2, c1]
    simp only [List.not_mem_nil, false_or, Single, ← usable_iff]
  have hd : ∀ a b, ((∃ p, usable env a = some p ∧ Above sq env cut [p] false) ∨ (∃ p, usable env b = some p ∧ Above sq env cut ((usable env a).toList ++ [p]) false)) ↔
      Doublet sq env cut a b := by
    intro a b
    unfold Doublet
    simp only [← usable_iff]
    refine or_congr Iff.rfl (exists_congr fun q => and_congr_right fun _ => ?_)
    cases usable env a with
    | none => simp
    | some p => simp
  refine ⟨?_, ?_, ?_, ?_, ?_, ?_, ?_⟩
  · rw [hall]; simp
  · rw [hall]; simp
  · rw [hall]; simp
  · rw [hall]; simp
  · rw [hall, ← hd]; simp
  · rw [hall, ← hd]; simp
  · intro n hn
    rw [hall] at hn
    rcases hn with ((((((h | h) | h) | h) | h) | h) | h) | h <;> rw [h.1] <;> simp

/-- **C170** The search returns whenever the positions and the fluxes of the usable lines are defined. -/
theorem C170_total (sq : K → K) (env : Env K) (cut : K) (hg : ∀ tag p, Usable env tag p → ∃ g, env.geom p.1 p.2 = .ok g)
    (hf : ∀ (ls : List (Nat × Nat)) (sub : Bool), ls ≠ [] → (∀ p ∈ ls, ∃ tag, Usable env tag p) → ∃ f, env.flux (ls.map (·.1)) (ls.map (·.2)) sub = .ok f) :
    ∃ r, linesAbove sq env cut = .ok r := by
  have key : ∀ (l : List (String × String)) (s : St), (∀ p ∈ s.oii, ∃ tag, Usable env tag p) → (∀ p ∈ s.ciii, ∃ tag, Usable env tag p) →
      ∃ s', EltList.foldL (step sq env cut) l s = .ok s' := by
    intro l
    induction l with
    | nil => intro s _ _; exact ⟨s, rfl⟩
    | cons t l ih =>
      intro s h1 h2
      have hstep : ∃ s', step sq env cut t s = .ok s' := by
        unfold step
        cases hu : usable env t.1 with
        | none => exact ⟨s, rfl⟩
        | some p =>
          have hp := (usable_iff env t.1 p).1 hu
          obtain ⟨g, hg'⟩ := hg _ p hp
          simp only
          rw [hg', Res.bind_ok]
          cases hgr : groupOf t.1 with
          | single =>
            obtain ⟨f, hf'⟩ := hf [p] true (by simp) (fun q hq => by rw [List.mem_singleton] at hq; exact ⟨_, hq ▸ hp⟩)
            simp only [decide_true]
            rw [hf', Res.bind_ok]
            exact ⟨_, rfl⟩
          | oii =>
            obtain ⟨f, hf'⟩ := hf (s.oii ++ [p]) false (by simp) (fun q hq => by
              rcases List.mem_append.1 hq with hq | hq
              · exact h1 q hq
              · rw [List.mem_singleton] at hq; exact ⟨_, hq ▸ hp⟩)
            simp only [reduceCtorEq, decide_false]
            rw [hf', Res.bind_ok]
            exact ⟨_, rfl⟩
          | ciii =>
            obtain ⟨f, hf'⟩ := hf (s.ciii ++ [p]) false (by simp) (fun q hq => by
              rcases List.mem_append.1 hq with hq | hq
              · exact h2 q hq
              · rw [List.mem_singleton] at hq; exact ⟨_, hq ▸ hp⟩)
            simp only [reduceCtorEq, decide_false]
            rw [hf', Res.bind_ok]
            exact ⟨_, rfl⟩
      obtain ⟨s', hs'⟩ := hstep
      obtain ⟨a, b, -⟩ := step_spec hs'
      unfold EltList.foldL
      rw [hs', Res.bind_ok]
      have hadd : ∀ g, ∀ p ∈ added env t.1 g, ∃ tag, Usable env tag p := by
        intro g p hp
        unfold added at hp
        split at hp
        · rw [Option.mem_toList] at hp
          exact ⟨_, (usable_iff _ _ _).1 hp⟩
        · simp at hp
      refine ih s' ?_ ?_
      · intro p hp
        rw [a, List.mem_append] at hp
        rcases hp with hp | hp
        · exact h1 p hp
        · exact hadd _ p hp
      · intro p hp
        rw [b, List.mem_append] at hp
        rcases hp with hp | hp
        · exact h2 p hp
        · exact hadd _ p hp
  obtain ⟨s, hs⟩ := key table ⟨[], [], []⟩ (by simp) (by simp)
  exact ⟨s.names, by unfold linesAbove; rw [hs]; rfl⟩

/-- Hα and the OII doublet of two lines in one element: each of the OII lines is too weak alone, together they are reported. -/
def exEnv : Env ℚ := ⟨[⟨1, "Halpha", true⟩, ⟨2, "[OII]3726", true⟩, ⟨3, "[OII]3729", true⟩], [[1], [2, 3]], fun _ _ => false, fun _ _ => .ok (1, 1),
  fun l _ _ => .ok (if l = [0] then (9, 4) else if l = [1] then (4, 4) else (12, 4))⟩

example : linesAbove (fun x => x) exEnv 3 = .ok [] ∧ linesAbove (fun x => x) exEnv 2 = .ok ["OII", "Ha"] := by decide +kernel

end AboveSnr
end Amazed
