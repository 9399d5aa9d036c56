import Verif.Model.FitStage
import Mathlib.Tactic.SplitIfs
import Mathlib.Tactic.Tauto

set_option linter.unusedVariables false
set_option linter.unusedSimpArgs false

/-! # Fitting options of each stage of a line model run (C190–C192) -/

namespace Amazed.FitStage

/-! ## Specification -/

/-- The documented names and the fitters they stand for. -/
def table : List (String × Kind) :=
  [("hybrid", .hybrid), ("lbfgsb", .lbfgsb), ("svd", .svd), ("svdlc", .svdlc (-1)), ("svdlcp2", .svdlc 2), ("ones", .ones),
   ("random", .random), ("individual", .individual)]

/-- The fitters that know about amplitude and wavelength offsets. -/
def withOffsets (k : Kind) : Prop := k = .hybrid ∨ k = .lbfgsb ∨ k = .svd

/-- `f` is the fitter of that name with those options. -/
def Named (lb : Bool) (name : String) (amp lbda : Bool) (f : Fitter) : Prop :=
  (name, f.kind) ∈ table ∧ (name = "lbfgsb" → lb = true) ∧
  (f.ampOff = true ↔ amp = true ∧ withOffsets f.kind) ∧ (f.lbdaOff = true ↔ lbda = true ∧ withOffsets f.kind)

/-- A name that the library knows. -/
def Known (lb : Bool) (name : String) : Prop := (∃ k, (name, k) ∈ table) ∧ (name = "lbfgsb" → lb = true)

/-- The additional fit of the second pass is asked for. -/
def LcOn (p : Pars) : Prop := p.lc = "svdlc" ∨ p.lc = "svdlcp2"

/-- The fitting method of the velocity fit. -/
def velName (p : Pars) : String := if p.ratio = "tplRatio" then "individual" else "hybrid"

/-- A stage that works with the settings of the first pass. -/
def Early (p : Pars) (st : Stage) : Prop := st = .first ∨ (st = .report ∧ p.skipSecond = true)

/-- A stage that works with the settings of the second pass. -/
def Main (p : Pars) (st : Stage) : Prop := st = .estimate ∨ st = .recompute ∨ (st = .report ∧ p.skipSecond = false)

/-- The fitter and the switches a stage has to work with. -/
structure AsAsked (p : Pars) (st : Stage) (m : Mgr) : Prop where
  early : Early p st → ∃ f, m.fitter = some f ∧ Named p.lb p.firstMethod false false f
  main : Main p st → ∃ f, m.fitter = some f ∧ Named p.lb p.method p.ampOff p.lbdaOff f
  vel : st = .velocity → ∃ f, m.fitter = some f ∧ Named p.lb (velName p) false false f
  lc : st = .lc → ∃ f, m.fitter = some f ∧ Named p.lb p.lc false false f
  cont : m.oneCont = true ↔ Early p st ∧ p.firstOneCont = true
  lya : m.lyaNoFit = true ↔ Early p st ∨ p.lyaFix = true
  lyaF : m.lyaFit = true ↔ ¬ Early p st ∧ p.lyaFit = true
  ism : p.ratio = "tplRatio" → (m.noIsm = true ↔ (Early p st ∨ st = .velocity) ∧ p.firstNoIsm = true)
  kind : p.ratio = "tplRatio" ↔ m.ratio = .tplRatio

/-- The stages of a complete run, in order. -/
def stages (p : Pars) (nz : Nat) (cs : List Cand) (k : Nat) : List Stage :=
  List.replicate nz .first ++
  (if p.skipSecond = true then [] else
    cs.flatMap (fun c => Stage.estimate :: if p.velFit = true then List.replicate c.vel .velocity else []) ++
    cs.flatMap (fun c => List.replicate c.win .recompute) ++
    (if p.lc = "svdlc" ∨ p.lc = "svdlcp2" then
      cs.flatMap (fun c => List.replicate c.win Stage.lc) ++ cs.flatMap (fun c => List.replicate c.win .recompute) else [])) ++
  List.replicate k .report

/-! ## The factories -/

theorem makeFitter_ok (lb : Bool) (name : String) (a l : Bool) :
    (∃ f, makeFitter lb name a l = .ok f ∧ Named lb name a l f) ∨ (makeFitter lb name a l = .throw .INTERNAL_ERROR ∧ ¬ Known lb name) := by
  unfold makeFitter
  by_cases h1 : name = "hybrid"
  · subst h1; left; refine ⟨_, if_pos rfl, ?_, fun h => absurd h (by decide), ?_⟩ <;> simp [table, withOffsets]
  rw [if_neg h1]
  by_cases h2 : lb = true ∧ name = "lbfgsb"
  · obtain ⟨hl, h2⟩ := h2; subst h2; left; refine ⟨_, if_pos ⟨hl, rfl⟩, ?_, fun _ => hl, ?_⟩ <;> simp [table, withOffsets]
  rw [if_neg h2]
  by_cases h3 : name = "svd"
  · subst h3; left; refine ⟨_, if_pos rfl, ?_, fun h => absurd h (by decide), ?_⟩ <;> simp [table, withOffsets]
  rw [if_neg h3]
  by_cases h4 : name = "svdlc"
  · subst h4; left; refine ⟨_, if_pos rfl, ?_, fun h => absurd h (by decide), ?_⟩ <;> simp [table, withOffsets]
  rw [if_neg h4]
  by_cases h5 : name = "svdlcp2"
  · subst h5; left; refine ⟨_, if_pos rfl, ?_, fun h => absurd h (by decide), ?_⟩ <;> simp [table, withOffsets]
  rw [if_neg h5]
  by_cases h6 : name = "ones"
  · subst h6; left; refine ⟨_, if_pos rfl, ?_, fun h => absurd h (by decide), ?_⟩ <;> simp [table, withOffsets]
  rw [if_neg h6]
  by_cases h7 : name = "random"
  · subst h7; left; refine ⟨_, if_pos rfl, ?_, fun h => absurd h (by decide), ?_⟩ <;> simp [table, withOffsets]
  rw [if_neg h7]
  by_cases h8 : name = "individual"
  · subst h8; left; refine ⟨_, if_pos rfl, ?_, fun h => absurd h (by decide), ?_⟩ <;> simp [table, withOffsets]
  rw [if_neg h8]
  right
  refine ⟨rfl, ?_⟩
  rintro ⟨⟨k, hk⟩, hlb⟩
  simp only [table, List.mem_cons, Prod.mk.injEq, List.not_mem_nil, or_false] at hk
  rcases hk with h | h | h | h | h | h | h | h
  · exact h1 h.1
  · exact h2 ⟨hlb h.1, h.1⟩
  · exact h3 h.1
  · exact h4 h.1
  · exact h5 h.1
  · exact h6 h.1
  · exact h7 h.1
  · exact h8 h.1

theorem named_known {lb : Bool} {name : String} {a l : Bool} {f : Fitter} (h : Named lb name a l f) : Known lb name :=
  ⟨⟨_, h.1⟩, h.2.1⟩

theorem makeFitter_named {lb : Bool} {name : String} {a l : Bool} {f : Fitter} (h : makeFitter lb name a l = .ok f) :
    Named lb name a l f := by
  rcases makeFitter_ok lb name a l with ⟨g, hg, hn⟩ | ⟨h', _⟩
  · rw [h] at hg; cases hg; exact hn
  · rw [h] at h'; cases h'

theorem makeFitter_not_ub (lb : Bool) (name : String) (a l : Bool) : makeFitter lb name a l ≠ .ub := by
  rcases makeFitter_ok lb name a l with ⟨g, hg, _⟩ | ⟨h', _⟩
  · rw [hg]; exact nofun
  · rw [h']; exact nofun

theorem makeRatio_not_ub (name : String) : makeRatio name ≠ .ub := by
  unfold makeRatio; split_ifs <;> exact nofun

theorem makeRatio_tpl {name : String} {r : Ratio} (h : makeRatio name = .ok r) : name = "tplRatio" ↔ r = .tplRatio := by
  unfold makeRatio at h
  by_cases h1 : name = "tplRatio"
  · rw [if_pos h1] at h; cases h; simp [h1]
  rw [if_neg h1] at h
  by_cases h2 : name = "tplCorr"
  · rw [if_pos h2] at h; cases h; simp [h1]
  rw [if_neg h2] at h
  by_cases h3 : name = "rules"
  · rw [if_pos h3] at h; cases h; simp [h1]
  · rw [if_neg h3] at h; cases h

/-! ## Reasoning about pieces of a run -/

/-- The piece only adds fits satisfying `R`, never runs into undefined behaviour, and if it ends
normally its settings satisfy `P` and its stages are `S`. -/
def Tri (R : Stage → Mgr → Prop) (h : Hist) (x : Out) (P : Mgr → Prop) (S : List Stage) : Prop :=
  x.2 ≠ .ub ∧ (∃ l : Hist, x.1 = h ++ l ∧ (∀ y ∈ l, R y.1 y.2) ∧ ∀ m, x.2 = .ok m → P m ∧ l.map (·.1) = S)

theorem tri_andThen {R : Stage → Mgr → Prop} {h : Hist} {x : Out} {P Q : Mgr → Prop} {S S' : List Stage} {f : Hist → Mgr → Out}
    (hx : Tri R h x P S) (hf : ∀ h' m, P m → Tri R h' (f h' m) Q S') : Tri R h (andThen x f) Q (S ++ S') := by
  obtain ⟨hub, l, hl, hR, hP⟩ := hx
  obtain ⟨x1, x2⟩ := x
  cases x2 with
  | ok m =>
    obtain ⟨hPm, hS⟩ := hP m rfl
    obtain ⟨hub', l', hl', hR', hP'⟩ := hf x1 m hPm
    refine ⟨hub', l ++ l', ?_, ?_, ?_⟩
    · show (f x1 m).1 = _
      rw [hl']
      simp only at hl
      rw [hl, List.append_assoc]
    · intro y hy
      rcases List.mem_append.1 hy with hy | hy
      · exact hR y hy
      · exact hR' y hy
    · intro m' hm'
      obtain ⟨h1, h2⟩ := hP' m' hm'
      exact ⟨h1, by rw [List.map_append, hS, h2]⟩
  | throw e => exact ⟨nofun, l, hl, hR, nofun⟩
  | ub => exact absurd rfl hub

theorem tri_done {R : Stage → Mgr → Prop} (h : Hist) {m : Mgr} {P : Mgr → Prop} (hm : P m) : Tri R h (h, .ok m) P [] :=
  ⟨nofun, [], by simp, by simp, fun m' h' => by cases h'; exact ⟨hm, rfl⟩⟩

theorem tri_throw {R : Stage → Mgr → Prop} (h : Hist) {e : Err} {P : Mgr → Prop} {S : List Stage} : Tri R h (h, .throw e) P S :=
  ⟨nofun, [], by simp, by simp, nofun⟩

theorem tri_change {R : Stage → Mgr → Prop} (h : Hist) {m : Mgr} {f : Mgr → Res Mgr} {P : Mgr → Prop} (hub : f m ≠ .ub)
    (hP : ∀ m', f m = .ok m' → P m') : Tri R h (change f h m) P [] :=
  ⟨hub, [], by simp [change], by simp, fun m' h' => ⟨hP m' h', rfl⟩⟩

theorem tri_mono {R : Stage → Mgr → Prop} {h : Hist} {x : Out} {P Q : Mgr → Prop} {S : List Stage} (hx : Tri R h x P S)
    (hPQ : ∀ m, P m → Q m) : Tri R h x Q S :=
  ⟨hx.1, hx.2.imp fun l hl => ⟨hl.1, hl.2.1, fun m hm => ⟨hPQ m (hl.2.2 m hm).1, (hl.2.2 m hm).2⟩⟩⟩

theorem tri_fitOnce {R : Stage → Mgr → Prop} (n : Env) (st : Stage) (h : Hist) {m : Mgr} {P : Mgr → Prop} (hf : m.fitter ≠ none)
    (hR : R st m) (hP : P m) : Tri R h (fitOnce n st h m) P [st] := by
  unfold fitOnce
  rw [if_neg hf]
  refine ⟨?_, [(st, m)], rfl, by simpa using hR, ?_⟩
  · cases n.fails (h ++ [(st, m)]) <;> exact nofun
  · intro m' hm'
    cases hn : n.fails (h ++ [(st, m)]) with
    | none => rw [hn] at hm'; cases hm'; exact ⟨hP, rfl⟩
    | some e => rw [hn] at hm'; cases hm'

theorem tri_fits {R : Stage → Mgr → Prop} (n : Env) (st : Stage) {P : Mgr → Prop} (hf : ∀ m, P m → m.fitter ≠ none)
    (hR : ∀ m, P m → R st m) : ∀ (k : Nat) (h : Hist) (m : Mgr), P m → Tri R h (fits n st k h m) P (List.replicate k st) := by
  intro k
  induction k with
  | zero => intro h m hm; exact tri_done h hm
  | succ k ih =>
    intro h m hm
    have := tri_andThen (f := fits n st k) (tri_fitOnce n st h (hf m hm) (hR m hm) hm) (fun h' m' hm' => ih h' m' hm')
    rw [List.replicate_succ]
    exact this

theorem tri_forCands {R : Stage → Mgr → Prop} {A : Type} {body : A → Hist → Mgr → Out} {P : Mgr → Prop} {S : A → List Stage} :
    ∀ (cs : List A), (∀ c h m, P m → Tri R h (body c h m) P (S c)) →
    ∀ (h : Hist) (m : Mgr), P m → Tri R h (forCands body cs h m) P (cs.flatMap S) := by
  intro cs hb
  induction cs with
  | nil => intro h m hm; exact tri_done h hm
  | cons c r ih =>
    intro h m hm
    rw [List.flatMap_cons]
    exact tri_andThen (hb c h m hm) (fun h' m' hm' => ih h' m' hm')

theorem tri_recompute {R : Stage → Mgr → Prop} (n : Env) (st : Stage) {P : Mgr → Prop} (hf : ∀ m, P m → m.fitter ≠ none)
    (hR : ∀ m, P m → R st m) (cs : List Cand) (h : Hist) (m : Mgr) (hm : P m) :
    Tri R h (recompute n st cs h m) P (cs.flatMap fun c => List.replicate c.win st) := by
  unfold recompute
  split_ifs with h0
  · exact tri_throw h
  · exact tri_forCands cs (fun c h m hm => tri_fits n st hf hR c.win h m hm) h m hm

/-! ## The run -/

/-- The name of the method and the flag of the models at the end of the second pass. -/
def mid (p : Pars) : String × Bool := if p.velFit = true then (velName p, false) else (p.method, p.ampOff)

/-- The name of the method and the flag of the models in the fits of each stage. -/
def Held (p : Pars) (st : Stage) (m : Mgr) : Prop :=
  (Early p st → (m.name, m.modelOff) = (p.firstMethod, false)) ∧
  (st = .estimate → (m.name, m.modelOff) = (p.method, p.ampOff) ∨ (m.name, m.modelOff) = mid p) ∧
  (st = .velocity → (m.name, m.modelOff) = (velName p, false)) ∧
  (st = .recompute → (m.name, m.modelOff) = mid p ∨ (LcOn p ∧ (m.name, m.modelOff) = (p.lc, false))) ∧
  (st = .lc → (m.name, m.modelOff) = (p.lc, false) ∧ LcOn p) ∧
  (st = .report → p.skipSecond = false → LcOn p → (m.name, m.modelOff) = (p.lc, false)) ∧
  (st = .report → p.skipSecond = false → ¬ LcOn p → (m.name, m.modelOff) = mid p) ∧ st ≠ .meas

/-- What is proved of every fit. -/
def Fine (p : Pars) (st : Stage) (m : Mgr) : Prop := AsAsked p st m ∧ Held p st m

/-- The settings of the first pass. -/
structure First (p : Pars) (m : Mgr) : Prop where
  fit : ∃ f, m.fitter = some f ∧ Named p.lb p.firstMethod false false f
  held : (m.name, m.modelOff) = (p.firstMethod, false)
  cont : m.oneCont = p.firstOneCont
  lya : m.lyaNoFit = true
  lyaF : m.lyaFit = false
  ism : p.ratio = "tplRatio" → m.noIsm = p.firstNoIsm
  kind : p.ratio = "tplRatio" ↔ m.ratio = .tplRatio

/-- The settings of the second pass, with the fitter `f`, the name and flag `a`. -/
structure Second (p : Pars) (f : Fitter) (a : String × Bool) (noIsm : Bool) (m : Mgr) : Prop where
  fit : m.fitter = some f
  held : (m.name, m.modelOff) = a
  cont : m.oneCont = false
  lya : m.lyaNoFit = p.lyaFix
  lyaF : m.lyaFit = p.lyaFit
  ism : p.ratio = "tplRatio" → m.noIsm = noIsm
  kind : p.ratio = "tplRatio" ↔ m.ratio = .tplRatio

theorem Second.main {p : Pars} {f : Fitter} {a : String × Bool} {m : Mgr} {st : Stage} (h : Second p f a false m)
    (hn : Named p.lb p.method p.ampOff p.lbdaOff f) (hst : Main p st) : AsAsked p st m := by
  have hne : ¬ Early p st := by
    rintro (h | h) <;> rcases hst with h' | h' | h' <;> simp_all
  have hnv : st ≠ .velocity := by rcases hst with h' | h' | h' <;> simp [h']
  have hnl : st ≠ .lc := by rcases hst with h' | h' | h' <;> simp [h']
  exact ⟨fun h => absurd h hne, fun _ => ⟨f, h.fit, hn⟩, fun h => absurd h hnv, fun h => absurd h hnl, by simp [h.cont, hne],
    by simp [h.lya, hne], by simp [h.lyaF, hne], fun hr => by simp [h.ism hr, hne, hnv], h.kind⟩

theorem Second.vel {p : Pars} {f : Fitter} {a : String × Bool} {m : Mgr} (h : Second p f a p.firstNoIsm m)
    (hn : Named p.lb (velName p) false false f) : AsAsked p .velocity m := by
  have hne : ¬ Early p .velocity := by rintro (h | h) <;> simp_all
  exact ⟨fun h => absurd h hne, fun h => by rcases h with h | h | h <;> simp_all, fun _ => ⟨f, h.fit, hn⟩, nofun, by simp [h.cont, hne],
    by simp [h.lya, hne], by simp [h.lyaF, hne], fun hr => by simp [h.ism hr], h.kind⟩

theorem Second.lc {p : Pars} {f : Fitter} {a : String × Bool} {m : Mgr} (h : Second p f a false m)
    (hn : Named p.lb p.lc false false f) : AsAsked p .lc m := by
  have hne : ¬ Early p .lc := by rintro (h | h) <;> simp_all
  exact ⟨fun h => absurd h hne, fun h => by rcases h with h | h | h <;> simp_all, nofun, fun _ => ⟨f, h.fit, hn⟩, by simp [h.cont, hne],
    by simp [h.lya, hne], by simp [h.lyaF, hne], fun hr => by simp [h.ism hr, hne], h.kind⟩

theorem First.fine {p : Pars} {m : Mgr} {st : Stage} (h : First p m) (hst : Early p st) : Fine p st m := by
  have hnm : ¬ Main p st := by rintro (h | h | h) <;> rcases hst with h' | h' <;> simp_all
  have hnv : st ≠ .velocity := by rcases hst with h' | h' <;> simp [h']
  have hnl : st ≠ .lc := by rcases hst with h' | h' <;> simp [h']
  have hne : st ≠ .estimate := by rcases hst with h' | h' <;> simp [h']
  have hnr : st ≠ .recompute := by rcases hst with h' | h' <;> simp [h']
  refine ⟨⟨fun _ => h.fit, fun h => absurd h hnm, fun h => absurd h hnv, fun h => absurd h hnl, by simp [h.cont, hst],
    by simp [h.lya, hst], by simp [h.lyaF, hst], fun hr => by simp [h.ism hr, hst], h.kind⟩, fun _ => h.held,
    fun h => absurd h hne, fun h => absurd h hnv, fun h => absurd h hnr, fun h => absurd h hnl, ?_, ?_, ?_⟩
  · intro h1 h2 _
    rcases hst with h' | h'
    · rw [h1] at h'; cases h'
    · rw [h2] at h'; cases h'.2
  · intro h1 h2 _
    rcases hst with h' | h'
    · rw [h1] at h'; cases h'
    · rw [h2] at h'; cases h'.2
  · rcases hst with h' | h' <;> simp [h']

theorem setFitting_ok {p : Pars} {name : String} {a l : Bool} {m m' : Mgr} (h : setFitting p name a l m = .ok m') :
    ∃ f, makeFitter p.lb name a l = .ok f ∧ m' = { m with name := name, fitter := some f, modelOff := a } := by
  obtain ⟨f, h1, h2⟩ := Res.bind_eq_ok.1 h
  exact ⟨f, h1, (Res.ok.inj h2).symm⟩

theorem setFitting_not_ub (p : Pars) (name : String) (a l : Bool) (m : Mgr) : setFitting p name a l m ≠ .ub := by
  unfold setFitting
  cases h : makeFitter p.lb name a l with
  | ok f => exact nofun
  | throw e => exact nofun
  | ub => exact absurd h (makeFitter_not_ub _ _ _ _)

theorem newMgr_ok {p : Pars} {m : Mgr} (h : newMgr p = .ok m) :
    m.fitter ≠ none ∧ (p.ratio = "tplRatio" ↔ m.ratio = .tplRatio) ∧ Named p.lb p.method p.ampOff p.lbdaOff (m.fitter.getD ⟨.ones, false, false⟩) ∧
    m.name = p.method ∧ m.modelOff = p.ampOff ∧ m.oneCont = false ∧ m.lyaNoFit = false ∧ m.lyaFit = false ∧ m.noIsm = false := by
  obtain ⟨f, h1, h2⟩ := Res.bind_eq_ok.1 h
  obtain ⟨r, h3, h4⟩ := Res.bind_eq_ok.1 h2
  cases h4
  exact ⟨nofun, makeRatio_tpl h3, makeFitter_named h1, rfl, rfl, rfl, rfl, rfl, rfl⟩

theorem newMgr_not_ub (p : Pars) : newMgr p ≠ .ub := by
  unfold newMgr construct
  cases h : makeFitter p.lb p.method p.ampOff p.lbdaOff with
  | ok f =>
    cases h' : makeRatio p.ratio with
    | ok f => exact nofun
    | throw e => exact nofun
    | ub => exact absurd h' (makeRatio_not_ub _)
  | throw e => exact nofun
  | ub => exact absurd h (makeFitter_not_ub _ _ _ _)

theorem setPass_not_ub (p : Pars) (i : Int) (m : Mgr) : setPass p i m ≠ .ub := by
  unfold setPass
  split_ifs
  · cases h : setFitting p p.firstMethod false false { m with oneCont := p.firstOneCont } with
    | ok f => exact nofun
    | throw e => exact nofun
    | ub => exact absurd h (setFitting_not_ub _ _ _ _ _)
  · cases h : setFitting p p.method p.ampOff p.lbdaOff { m with oneCont := false } with
    | ok f => exact nofun
    | throw e => exact nofun
    | ub => exact absurd h (setFitting_not_ub _ _ _ _ _)
  · exact nofun
  · exact nofun

theorem setPass_one {p : Pars} {m m' : Mgr} (hk : p.ratio = "tplRatio" ↔ m.ratio = .tplRatio) (h : setPass p 1 m = .ok m') :
    First p m' := by
  obtain ⟨m1, h1, h2⟩ := Res.bind_eq_ok.1 h
  rw [if_pos rfl] at h1
  obtain ⟨f, h3, h4⟩ := setFitting_ok h1
  cases h2
  subst h4
  refine ⟨⟨f, rfl, makeFitter_named h3⟩, rfl, rfl, rfl, rfl, ?_, hk⟩
  intro hr
  simp [ratioPass, hk.1 hr]

theorem setPass_two {p : Pars} {m m' : Mgr} (hk : p.ratio = "tplRatio" ↔ m.ratio = .tplRatio) (h : setPass p 2 m = .ok m') :
    ∃ f, Named p.lb p.method p.ampOff p.lbdaOff f ∧ Second p f (p.method, p.ampOff) false m' := by
  obtain ⟨m1, h1, h2⟩ := Res.bind_eq_ok.1 h
  rw [if_neg (by decide), if_pos rfl] at h1
  obtain ⟨f, h3, h4⟩ := setFitting_ok h1
  cases h2
  subst h4
  refine ⟨f, makeFitter_named h3, rfl, rfl, rfl, rfl, rfl, ?_, hk⟩
  intro hr
  simp [ratioPass, hk.1 hr]

theorem velSettings_not_ub (p : Pars) (m : Mgr) : velSettings p m ≠ .ub := by
  unfold velSettings
  cases h : setFitting p "hybrid" false false { m with fitter := none } with
  | ok m1 =>
    rw [Res.bind_ok]
    split_ifs
    · cases h : setFitting p "individual" false false m1 with
      | ok f => exact nofun
      | throw e => exact nofun
      | ub => exact absurd h (setFitting_not_ub _ _ _ _ _)
    · exact nofun
  | throw e => exact nofun
  | ub => exact absurd h (setFitting_not_ub _ _ _ _ _)

theorem velSettings_ok {p : Pars} {f : Fitter} {a : String × Bool} {m m' : Mgr} (hm : Second p f a false m)
    (h : velSettings p m = .ok m') : ∃ g, Named p.lb (velName p) false false g ∧ Second p g (velName p, false) p.firstNoIsm m' := by
  obtain ⟨m1, h1, h2⟩ := Res.bind_eq_ok.1 h
  obtain ⟨g, h3, h4⟩ := setFitting_ok h1
  unfold velName
  by_cases hr : p.ratio = "tplRatio"
  · rw [if_pos hr] at h2
    obtain ⟨m2, h5, h6⟩ := Res.bind_eq_ok.1 h2
    obtain ⟨g', h7, h8⟩ := setFitting_ok h5
    rw [if_pos hr]
    cases h6
    subst h8 h4
    exact ⟨g', makeFitter_named h7, rfl, rfl, hm.cont, hm.lya, hm.lyaF, fun _ => rfl, hm.kind⟩
  · rw [if_neg hr] at h2
    rw [if_neg hr]
    cases h2
    subst h4
    exact ⟨g, makeFitter_named h3, rfl, rfl, hm.cont, hm.lya, hm.lyaF, fun h => absurd h hr, hm.kind⟩

theorem velRestore_ok {p : Pars} {f g : Fitter} {a : String × Bool} {b : Bool} {m : Mgr} (hm : Second p g a b m) :
    Second p f a false (velRestore p (some f) m) := by
  unfold velRestore
  split_ifs with hr
  · exact ⟨rfl, hm.held, hm.cont, hm.lya, hm.lyaF, fun _ => rfl, hm.kind⟩
  · exact ⟨rfl, hm.held, hm.cont, hm.lya, hm.lyaF, fun h => absurd h hr, hm.kind⟩

theorem held_estimate {p : Pars} {m : Mgr} (h : (m.name, m.modelOff) = (p.method, p.ampOff) ∨ (m.name, m.modelOff) = mid p) :
    Held p .estimate m :=
  ⟨fun h => by rcases h with h | h <;> simp_all, fun _ => h, nofun, nofun, nofun, nofun, nofun, nofun⟩

theorem held_vel {p : Pars} {m : Mgr} (h : (m.name, m.modelOff) = (velName p, false)) : Held p .velocity m :=
  ⟨fun h => by rcases h with h | h <;> simp_all, nofun, fun _ => h, nofun, nofun, nofun, nofun, nofun⟩

theorem held_recompute {p : Pars} {m : Mgr} (h : (m.name, m.modelOff) = mid p ∨ (LcOn p ∧ (m.name, m.modelOff) = (p.lc, false))) :
    Held p .recompute m :=
  ⟨fun h => by rcases h with h | h <;> simp_all, nofun, nofun, fun _ => h, nofun, nofun, nofun, nofun⟩

theorem held_lc {p : Pars} {m : Mgr} (h : (m.name, m.modelOff) = (p.lc, false)) (hl : LcOn p) : Held p .lc m :=
  ⟨fun h => by rcases h with h | h <;> simp_all, nofun, nofun, nofun, fun _ => ⟨h, hl⟩, nofun, nofun, nofun⟩

theorem held_report {p : Pars} {m : Mgr} (hs : p.skipSecond = false) (h1 : LcOn p → (m.name, m.modelOff) = (p.lc, false))
    (h2 : ¬ LcOn p → (m.name, m.modelOff) = mid p) : Held p .report m :=
  ⟨fun h => by rcases h with h | h <;> simp_all, nofun, nofun, nofun, nofun, fun _ _ => h1, fun _ _ => h2, nofun⟩

theorem tri_fitVelocity {p : Pars} {f : Fitter} {a : String × Bool} (n : Env) (c : Cand) (h : Hist) (m : Mgr)
    (hm : Second p f a false m) :
    Tri (Fine p) h (fitVelocity p n c h m) (Second p f (velName p, false) false) (List.replicate c.vel .velocity) := by
  unfold fitVelocity
  rw [show List.replicate c.vel Stage.velocity = [] ++ (List.replicate c.vel Stage.velocity ++ []) by simp]
  refine tri_andThen (P := fun m' => ∃ g, Named p.lb (velName p) false false g ∧ Second p g (velName p, false) p.firstNoIsm m')
    (tri_change h (velSettings_not_ub p m) fun m' hm' => velSettings_ok hm hm') ?_
  rintro h' m' ⟨g, hg, hm'⟩
  refine tri_andThen (P := Second p g (velName p, false) p.firstNoIsm)
    (tri_fits n .velocity (fun m hm => by rw [hm.fit]; exact nofun) (fun m hm => ⟨hm.vel hg, held_vel hm.held⟩) c.vel h' m' hm') ?_
  intro h'' m'' hm''
  rw [hm.fit]
  exact tri_done _ (velRestore_ok hm'')

theorem tri_estimate {p : Pars} {f : Fitter} {a : String × Bool} (hn : Named p.lb p.method p.ampOff p.lbdaOff f) (n : Env) (c : Cand)
    (h : Hist) (m : Mgr) (ha : a = (p.method, p.ampOff) ∨ a = mid p) (hm : Second p f a false m) :
    Tri (Fine p) h (estimate p n c h m) (Second p f (mid p) false)
      (Stage.estimate :: if p.velFit = true then List.replicate c.vel .velocity else []) := by
  unfold estimate
  have h1 : Tri (Fine p) h (fitOnce n .estimate h m) (Second p f a false) [.estimate] :=
    tri_fitOnce n .estimate h (by rw [hm.fit]; exact nofun)
      ⟨hm.main hn (Or.inl rfl), held_estimate (by rw [hm.held]; exact ha)⟩ hm
  by_cases hv : p.velFit = true
  · simp only [hv, if_true]
    refine tri_andThen (S := [.estimate]) h1 fun h' m' hm' => ?_
    have : mid p = (velName p, false) := by simp [mid, hv]
    rw [this]
    exact tri_fitVelocity n c h' m' hm'
  · simp only [hv, Bool.false_eq_true, if_false]
    have : mid p = (p.method, p.ampOff) := by simp [mid, hv]
    refine tri_andThen (S := [.estimate]) (S' := []) h1 fun h' m' hm' => tri_done _ ?_
    rcases ha with ha | ha
    · rw [this, ← ha]; exact hm'
    · rw [← ha]; exact hm'

theorem tri_estimates {p : Pars} {f : Fitter} (hn : Named p.lb p.method p.ampOff p.lbdaOff f) (n : Env) (cs : List Cand)
    (h : Hist) (m : Mgr) (hm : Second p f (p.method, p.ampOff) false m) :
    Tri (Fine p) h (forCands (estimate p n) cs h m) (fun m => cs ≠ [] → Second p f (mid p) false m)
      (cs.flatMap fun c => Stage.estimate :: if p.velFit = true then List.replicate c.vel .velocity else []) := by
  cases cs with
  | nil => exact tri_done _ (fun h => absurd rfl h)
  | cons c r =>
    rw [List.flatMap_cons]
    refine tri_mono (P := Second p f (mid p) false) ?_ (fun m hm _ => hm)
    refine tri_andThen (tri_estimate hn n c h m (Or.inl rfl) hm) fun h' m' hm' => ?_
    exact tri_forCands r (fun c h m hm => tri_estimate hn n c h m (Or.inr rfl) hm) h' m' hm'

/-- The settings after the second pass. -/
def After (p : Pars) (f : Fitter) (m : Mgr) : Prop :=
  (LcOn p → Second p f (p.lc, false) false m) ∧ (¬ LcOn p → Second p f (mid p) false m)

theorem tri_lcFit {p : Pars} {f : Fitter} (hn : Named p.lb p.method p.ampOff p.lbdaOff f) (n : Env) (cs : List Cand)
    (h : Hist) (m : Mgr) (hm : Second p f (mid p) false m) :
    Tri (Fine p) h (lcFit p n cs h m) (After p f)
      (if p.lc = "svdlc" ∨ p.lc = "svdlcp2" then
      cs.flatMap (fun c => List.replicate c.win Stage.lc) ++ cs.flatMap (fun c => List.replicate c.win .recompute) else []) := by
  unfold lcFit
  by_cases hl : p.lc = "svdlc" ∨ p.lc = "svdlcp2"
  · rw [if_pos hl, if_pos hl]
    refine tri_andThen (S := []) (P := fun m' => ∃ g, Named p.lb p.lc false false g ∧ Second p g (p.lc, false) false m')
      (tri_change h (setFitting_not_ub _ _ _ _ _) fun m' hm' => ?_) ?_
    · obtain ⟨g, h1, h2⟩ := setFitting_ok hm'
      subst h2
      exact ⟨g, makeFitter_named h1, rfl, rfl, hm.cont, hm.lya, hm.lyaF, hm.ism, hm.kind⟩
    · rintro h' m' ⟨g, hg, hm'⟩
      refine tri_andThen (P := Second p g (p.lc, false) false)
        (tri_recompute n .lc (fun m hm => by rw [hm.fit]; exact nofun) (fun m hm => ⟨hm.lc hg, held_lc hm.held hl⟩) cs h' m' hm') ?_
      intro h'' m'' hm''
      refine tri_mono (P := Second p f (p.lc, false) false) ?_ (fun m hm => ⟨fun _ => hm, fun h => absurd hl h⟩)
      refine tri_recompute n .recompute (fun m hm => by rw [hm.fit]; exact nofun)
        (fun m hm => ⟨hm.main hn (Or.inr (Or.inl rfl)), held_recompute (Or.inr ⟨hl, hm.held⟩)⟩) cs _ _ ?_
      exact ⟨hm.fit, hm''.held, hm''.cont, hm''.lya, hm''.lyaF, hm''.ism, hm''.kind⟩
  · rw [if_neg hl, if_neg hl]
    exact tri_done _ ⟨fun h => absurd h hl, fun _ => hm⟩

theorem tri_secondPass {p : Pars} (n : Env) (cs : List Cand) (h : Hist) (m : Mgr) (hm : First p m) :
    Tri (Fine p) h (secondPass p n cs h m) (fun m => ∃ f, Named p.lb p.method p.ampOff p.lbdaOff f ∧ After p f m)
      (cs.flatMap (fun c => Stage.estimate :: if p.velFit = true then List.replicate c.vel .velocity else []) ++
      cs.flatMap (fun c => List.replicate c.win .recompute) ++
      (if p.lc = "svdlc" ∨ p.lc = "svdlcp2" then
        cs.flatMap (fun c => List.replicate c.win Stage.lc) ++ cs.flatMap (fun c => List.replicate c.win .recompute) else [])) := by
  unfold secondPass
  rw [List.append_assoc]
  refine tri_andThen (S := []) (tri_change h (setPass_not_ub p 2 m) fun m' hm' => setPass_two hm.kind hm') ?_
  rintro h1 m1 ⟨f, hn, hm1⟩
  refine tri_andThen (tri_estimates hn n cs h1 m1 hm1) fun h2 m2 hm2 => ?_
  by_cases hc : cs = []
  · subst hc
    exact tri_throw h2
  refine tri_andThen (P := Second p f (mid p) false) (tri_recompute n .recompute (fun m hm => by rw [hm.fit]; exact nofun)
        (fun m hm => ⟨hm.main hn (Or.inr (Or.inl rfl)), held_recompute (Or.inl hm.held)⟩) cs h2 m2 (hm2 hc)) fun h3 m3 hm3 => ?_
  exact tri_mono (tri_lcFit hn n cs h3 m3 hm3) (fun m hm => ⟨f, hn, hm⟩)

theorem tri_report {R : Stage → Mgr → Prop} (n : Env) {P : Mgr → Prop} (hf : ∀ m, P m → m.fitter ≠ none) (hR : ∀ m, P m → R .report m)
    (k : Nat) (h : Hist) (m : Mgr) (hm : P m) : Tri R h (report n k h m) P (List.replicate k .report) := by
  unfold report
  have e : List.replicate k Stage.report = (List.replicate k ()).flatMap (fun _ => [Stage.report]) := by
    induction k with
    | zero => rfl
    | succ k ih => rw [List.replicate_succ, List.replicate_succ, List.flatMap_cons, ih]; rfl
  rw [e]
  refine tri_forCands _ (fun c h m hm => ?_) h m hm
  unfold reportOne
  refine tri_andThen (S := [.report]) (S' := []) (tri_fitOnce n .report h (hf m hm) (hR m hm) hm) fun h' m' hm' => ?_
  split_ifs
  · exact tri_throw h'
  · exact tri_done h' hm'

theorem After.fit_ne {p : Pars} {f : Fitter} {m : Mgr} (h : After p f m) : m.fitter = some f := by
  by_cases hl : LcOn p
  · exact (h.1 hl).fit
  · exact (h.2 hl).fit

theorem After.fine {p : Pars} {f : Fitter} {m : Mgr} (h : After p f m) (hn : Named p.lb p.method p.ampOff p.lbdaOff f)
    (hs : p.skipSecond = false) : Fine p .report m := by
  refine ⟨?_, held_report hs (fun hl => (h.1 hl).held) (fun hl => (h.2 hl).held)⟩
  by_cases hl : LcOn p
  · exact (h.1 hl).main hn (Or.inr (Or.inr ⟨rfl, hs⟩))
  · exact (h.2 hl).main hn (Or.inr (Or.inr ⟨rfl, hs⟩))

/-- What follows the first pass. -/
theorem tri_rest (p : Pars) (n : Env) (cs : List Cand) (k : Nat) (h2 : Hist) (m2 : Mgr) (hm2 : First p m2) :
    Tri (Fine p) h2 (andThen (if p.skipSecond then (h2, .ok m2) else secondPass p n cs h2 m2) fun h m => report n k h m) (fun _ => True)
      ((if p.skipSecond = true then [] else
    cs.flatMap (fun c => Stage.estimate :: if p.velFit = true then List.replicate c.vel .velocity else []) ++
    cs.flatMap (fun c => List.replicate c.win .recompute) ++
    (if p.lc = "svdlc" ∨ p.lc = "svdlcp2" then
      cs.flatMap (fun c => List.replicate c.win Stage.lc) ++ cs.flatMap (fun c => List.replicate c.win .recompute) else [])) ++
      List.replicate k .report) := by
  by_cases hs : p.skipSecond = true
  · simp only [hs, if_true]
    refine tri_andThen (S := []) (P := First p) (tri_done _ hm2) fun h3 m3 hm3 => ?_
    exact tri_mono (tri_report n (P := First p) (fun m hm => by obtain ⟨f, hf, _⟩ := hm.fit; rw [hf]; exact nofun)
      (fun m hm => hm.fine (Or.inr ⟨rfl, hs⟩)) k h3 m3 hm3) (fun _ _ => trivial)
  · have hs' : p.skipSecond = false := by simpa using hs
    simp only [hs, Bool.false_eq_true, if_false]
    refine tri_andThen (tri_secondPass n cs h2 m2 hm2) ?_
    rintro h3 m3 ⟨f, hn, hm3⟩
    exact tri_mono (tri_report n (P := After p f) (fun m hm => by rw [hm.fit_ne]; exact nofun)
      (fun m hm => hm.fine hn hs') k h3 m3 hm3) (fun _ _ => trivial)

/-- The whole run. -/
theorem tri_solve (p : Pars) (n : Env) (nz : Nat) (cs : List Cand) (k : Nat) :
    Tri (Fine p) [] (solve p n nz cs k) (fun _ => True) (stages p nz cs k) := by
  unfold solve stages
  rw [List.append_assoc]
  refine tri_andThen (S := []) (P := fun m => p.ratio = "tplRatio" ↔ m.ratio = .tplRatio)
    ⟨newMgr_not_ub p, [], rfl, by simp, fun m hm => ⟨(newMgr_ok hm).2.1, rfl⟩⟩ fun h0 m0 hm0 => ?_
  refine tri_andThen (S := []) (tri_change h0 (setPass_not_ub p 1 m0) fun m' hm' => setPass_one hm0 hm') fun h1 m1 hm1 => ?_
  refine tri_andThen (P := First p) (tri_fits n .first (fun m hm => by obtain ⟨f, hf, _⟩ := hm.fit; rw [hf]; exact nofun)
    (fun m hm => hm.fine (Or.inl rfl)) nz h1 m1 hm1) fun h2 m2 hm2 => ?_
  exact tri_rest p n cs k h2 m2 hm2

/-! ## C190: every stage works with the fitter and the switches asked for -/

/-- C190. In every run of the line model, whatever fits fail, no null fitter is used, and every fit is made with the
fitter and the switches its stage is asked to use. -/
theorem C190_stages (p : Pars) (n : Env) (nz : Nat) (cs : List Cand) (k : Nat) :
    (solve p n nz cs k).2 ≠ .ub ∧ ∀ x ∈ (solve p n nz cs k).1, AsAsked p x.1 x.2 := by
  obtain ⟨h, l, hl, hR, -⟩ := tri_solve p n nz cs k
  rw [List.nil_append] at hl
  exact ⟨h, fun x hx => (hR x (hl ▸ hx)).1⟩

/-- C190. A run that ends normally has made the fits of the documented stages, in that order, and no other. -/
theorem C190_order (p : Pars) (n : Env) (nz : Nat) (cs : List Cand) (k : Nat) (m : Mgr) (h : (solve p n nz cs k).2 = .ok m) :
    (solve p n nz cs k).1.map (·.1) = stages p nz cs k := by
  obtain ⟨-, l, hl, -, hP⟩ := tri_solve p n nz cs k
  rw [List.nil_append] at hl
  rw [hl]
  exact (hP m h).2

/-- C190. The line measurement works with the fitter of the parameters, and no Lyman alpha switch. -/
theorem C190_lineMeas (p : Pars) (n : Env) (nz : Nat) :
    (lineMeas p n nz).2 ≠ .ub ∧ ∀ x ∈ (lineMeas p n nz).1, x.1 = .meas ∧ x.2.name = p.method ∧ x.2.modelOff = p.ampOff ∧
      x.2.oneCont = false ∧ x.2.lyaNoFit = false ∧ x.2.lyaFit = false ∧ x.2.noIsm = false ∧
      ∃ f, x.2.fitter = some f ∧ Named p.lb p.method p.ampOff p.lbdaOff f := by
  have : Tri (fun st m => st = .meas ∧ m.name = p.method ∧ m.modelOff = p.ampOff ∧
      m.oneCont = false ∧ m.lyaNoFit = false ∧ m.lyaFit = false ∧ m.noIsm = false ∧
      ∃ f, m.fitter = some f ∧ Named p.lb p.method p.ampOff p.lbdaOff f) [] (lineMeas p n nz) (fun _ => True)
      (List.replicate nz .meas) := by
    unfold lineMeas
    refine tri_andThen (S := []) (P := fun m => newMgr p = .ok m)
      ⟨newMgr_not_ub p, [], rfl, by simp, fun m hm => ⟨hm, rfl⟩⟩ fun h0 m0 hm0 => ?_
    obtain ⟨h1, h2, h3, h4, h5, h6, h7, h8, h9⟩ := newMgr_ok hm0
    refine tri_andThen (S := []) (P := fun m => m.name = p.method ∧ m.modelOff = p.ampOff ∧
      m.oneCont = false ∧ m.lyaNoFit = false ∧ m.lyaFit = false ∧ m.noIsm = false ∧
      ∃ f, m.fitter = some f ∧ Named p.lb p.method p.ampOff p.lbdaOff f)
      (tri_change h0 (setPass_not_ub p 3 m0) fun m' hm' => ?_) fun h' m' hm' => ?_
    · have e : m' = ratioPass p 3 { m0 with oneCont := false } := (Res.ok.inj hm').symm
      subst e
      refine ⟨h4, h5, rfl, rfl, h8, ?_, ?_⟩
      · show (if m0.ratio = .tplRatio then _ else _) = false
        simp [h9]
      · cases hf : m0.fitter with
        | none => exact absurd hf h1
        | some f => rw [hf] at h3; exact ⟨f, rfl, h3⟩
    · refine tri_mono (tri_fits n .meas (fun m hm => ?_) (fun m hm => ⟨rfl, hm⟩) nz h' m' hm') (fun _ _ => trivial)
      obtain ⟨f, hf, -⟩ := hm.2.2.2.2.2.2
      rw [hf]; exact nofun
  obtain ⟨h, l, hl, hR, -⟩ := this
  rw [List.nil_append] at hl
  exact ⟨h, fun x hx => hR x (hl ▸ hx)⟩

/-- C190. The line model used to orthogonalise the templates is fitted by the hybrid fitter and by rules, with the offset
options of the parameters. -/
theorem C190_ortho (p : Pars) : ∃ m f, orthoMgr p = .ok m ∧ m.fitter = some f ∧ Named p.lb "hybrid" p.ampOff p.lbdaOff f ∧
    m.ratio = .rules ∧ m.name = "hybrid" ∧ m.modelOff = p.ampOff :=
  ⟨_, _, rfl, rfl, makeFitter_named (lb := p.lb) (name := "hybrid") (a := p.ampOff) (l := p.lbdaOff) rfl, rfl, rfl, rfl⟩

/-- A concrete set of parameters: template ratios, velocity fit, amplitude offsets, additional fit. -/
def p0 : Pars := ⟨true, "hybrid", "individual", "svdlc", "tplRatio", true, false, true, false, true, false, true, true⟩

/-- Fits that never fail. -/
def n0 : Env := ⟨fun _ => none, fun _ => true⟩

example : ((solve p0 n0 2 [⟨2, 1⟩, ⟨0, 2⟩] 1).1.map (·.1)) =
    [.first, .first, .estimate, .velocity, .velocity, .estimate, .recompute, .recompute, .recompute, .lc, .lc, .lc, .recompute,
     .recompute, .recompute, .report] := by decide +kernel

example : ((solve p0 n0 1 [⟨1, 1⟩] 1).1.map fun x => x.2.fitter.map (·.kind)) =
    [some .individual, some .hybrid, some .individual, some .hybrid, some (.svdlc (-1)), some .hybrid, some .hybrid] := by
  decide +kernel

/-! ## C191: the name and the model of the fitter in use -/

/-- The record of a fit agrees with its fitter: the fitting method reported by the model is that of the fitter, and if the fitter
fits amplitude offsets then the model spectrum it is judged by includes them. -/
def Agrees (m : Mgr) : Prop :=
  ∀ f, m.fitter = some f → (m.name, f.kind) ∈ table ∧ (f.ampOff = true → m.modelOff = true)

theorem tri_solve_skip (p : Pars) (hs : p.skipSecond = true) (n : Env) (nz : Nat) (cs : List Cand) (k : Nat) :
    Tri (fun st m => Early p st ∧ Fine p st m) [] (solve p n nz cs k) (fun _ => True) (List.replicate nz .first ++ List.replicate k .report) := by
  unfold solve
  refine tri_andThen (S := []) (P := fun m => p.ratio = "tplRatio" ↔ m.ratio = .tplRatio)
    ⟨newMgr_not_ub p, [], rfl, by simp, fun m hm => ⟨(newMgr_ok hm).2.1, rfl⟩⟩ fun h0 m0 hm0 => ?_
  refine tri_andThen (S := []) (tri_change h0 (setPass_not_ub p 1 m0) fun m' hm' => setPass_one hm0 hm') fun h1 m1 hm1 => ?_
  refine tri_andThen (P := First p) (tri_fits n .first (fun m hm => by obtain ⟨f, hf, _⟩ := hm.fit; rw [hf]; exact nofun)
    (fun m hm => ⟨Or.inl rfl, hm.fine (Or.inl rfl)⟩) nz h1 m1 hm1) fun h2 m2 hm2 => ?_
  simp only [hs, if_true]
  refine tri_andThen (S := []) (P := First p) (tri_done _ hm2) fun h3 m3 hm3 => ?_
  exact tri_mono (tri_report n (P := First p) (fun m hm => by obtain ⟨f, hf, _⟩ := hm.fit; rw [hf]; exact nofun)
    (fun m hm => ⟨Or.inr ⟨rfl, hs⟩, hm.fine (Or.inr ⟨rfl, hs⟩)⟩) k h3 m3 hm3) (fun _ _ => trivial)

theorem fine_of_mem {p : Pars} {n : Env} {nz : Nat} {cs : List Cand} {k : Nat} {x : Stage × Mgr} (hx : x ∈ (solve p n nz cs k).1) :
    Fine p x.1 x.2 := by
  obtain ⟨-, l, hl, hR, -⟩ := tri_solve p n nz cs k
  rw [List.nil_append] at hl
  exact hR x (hl ▸ hx)

theorem offsets_of_name {name : String} {k : Kind} (hm : name = "hybrid" ∨ name = "svd" ∨ name = "lbfgsb") (h : (name, k) ∈ table) :
    withOffsets k := by
  rcases hm with hm | hm | hm <;> subst hm <;> simp [table] at h <;> subst h <;> simp [withOffsets]

theorem agrees_early {p : Pars} {st : Stage} {m : Mgr} (h : Fine p st m) (he : Early p st) : Agrees m := by
  intro f hf
  obtain ⟨g, hg, hn⟩ := h.1.early he
  rw [hf] at hg; cases hg
  have hh := h.2.1 he
  rw [Prod.mk.injEq] at hh
  refine ⟨by rw [hh.1]; exact hn.1, fun ha => ?_⟩
  exact absurd (hn.2.2.1.1 ha).1 (by simp)

theorem agrees_main {p : Pars} {st : Stage} {m : Mgr} (h : Fine p st m) (he : Main p st) (hm : (m.name, m.modelOff) = (p.method, p.ampOff)) :
    Agrees m := by
  intro f hf
  obtain ⟨g, hg, hn⟩ := h.1.main he
  rw [hf] at hg; cases hg
  rw [Prod.mk.injEq] at hm
  exact ⟨by rw [hm.1]; exact hn.1, fun ha => by rw [hm.2]; exact (hn.2.2.1.1 ha).1⟩

/-- C191. In the velocity fit, in the additional fit and in the first pass the name and the model always agree with the fitter. -/
theorem C191_agrees_inside (p : Pars) (n : Env) (nz : Nat) (cs : List Cand) (k : Nat) (x : Stage × Mgr)
    (hx : x ∈ (solve p n nz cs k).1) (hst : x.1 = .first ∨ x.1 = .velocity ∨ x.1 = .lc) : Agrees x.2 := by
  have hF := fine_of_mem hx
  rcases hst with h | h | h
  · exact agrees_early hF (Or.inl h)
  · intro f hf
    obtain ⟨g, hg, hn⟩ := hF.1.vel h
    rw [hf] at hg; cases hg
    have hh := hF.2.2.2.1 h
    rw [Prod.mk.injEq] at hh
    exact ⟨by rw [hh.1]; exact hn.1, fun ha => absurd (hn.2.2.1.1 ha).1 (by simp)⟩
  · intro f hf
    obtain ⟨g, hg, hn⟩ := hF.1.lc h
    rw [hf] at hg; cases hg
    have hh := (hF.2.2.2.2.2.1 h).1
    rw [Prod.mk.injEq] at hh
    exact ⟨by rw [hh.1]; exact hn.1, fun ha => absurd (hn.2.2.1.1 ha).1 (by simp)⟩

/-- C191 (part that holds). Without velocity fit and without additional fit of the second pass, or when the second pass is
skipped, the name and the model agree with the fitter in every fit of every run. The full claim, without these conditions, is false of
the code: see `C191_velocity_loses_offsets`, `C191_lc_loses_offsets`, `C191_random_refused`. -/
theorem C191_agrees_partial (p : Pars) (n : Env) (nz : Nat) (cs : List Cand) (k : Nat)
    (hp : p.skipSecond = true ∨ (p.velFit = false ∧ ¬ LcOn p)) : ∀ x ∈ (solve p n nz cs k).1, Agrees x.2 := by
  intro x hx
  rcases hp with hs | ⟨hv, hl⟩
  · obtain ⟨-, l, hl, hR, -⟩ := tri_solve_skip p hs n nz cs k
    rw [List.nil_append] at hl
    obtain ⟨h1, h2⟩ := hR x (hl ▸ hx)
    exact agrees_early h2 h1
  · have hF := fine_of_mem hx
    have hmid : mid p = (p.method, p.ampOff) := by simp [mid, hv]
    by_cases he : Early p x.1
    · exact agrees_early hF he
    have hH := hF.2
    rw [Held, hmid] at hH
    obtain ⟨-, a2, -, a4, -, -, a7, a8⟩ := hH
    cases hst : x.1 with
    | first => exact absurd (Or.inl hst) he
    | estimate => exact agrees_main hF (Or.inl hst) ((a2 hst).elim id id)
    | velocity => exact C191_agrees_inside p n nz cs k x hx (Or.inr (Or.inl hst))
    | recompute => exact agrees_main hF (Or.inr (Or.inl hst)) ((a4 hst).elim id fun h => absurd h.1 hl)
    | lc => exact C191_agrees_inside p n nz cs k x hx (Or.inr (Or.inr hst))
    | report =>
      have hs : p.skipSecond = false := by
        cases hs : p.skipSecond with
        | false => rfl
        | true => exact absurd (Or.inr ⟨hst, hs⟩) he
      exact agrees_main hF (Or.inr (Or.inr ⟨hst, hs⟩)) (a7 hst hs hl)
    | meas => exact absurd hst a8

/-- C191 is false of the code: with the velocity fit, every fit of the fine grids and every reported candidate is fitted with
amplitude offsets (for a method that knows them) that the model spectrum it is judged by leaves out. -/
theorem C191_velocity_loses_offsets (p : Pars) (n : Env) (nz : Nat) (cs : List Cand) (k : Nat) (hs : p.skipSecond = false)
    (hv : p.velFit = true) (ha : p.ampOff = true) (hm : p.method = "hybrid" ∨ p.method = "svd" ∨ p.method = "lbfgsb")
    (x : Stage × Mgr) (hx : x ∈ (solve p n nz cs k).1) (hst : x.1 = .recompute ∨ x.1 = .report) :
    (∃ f, x.2.fitter = some f ∧ f.ampOff = true) ∧ x.2.modelOff = false := by
  have hF := fine_of_mem hx
  have hmid : mid p = (velName p, false) := by simp [mid, hv]
  have hM : Main p x.1 := by
    rcases hst with h | h
    · exact Or.inr (Or.inl h)
    · exact Or.inr (Or.inr ⟨h, hs⟩)
  refine ⟨?_, ?_⟩
  · obtain ⟨f, hf, hn⟩ := hF.1.main hM
    exact ⟨f, hf, hn.2.2.1.2 ⟨ha, offsets_of_name hm hn.1⟩⟩
  · have hH := hF.2
    rw [Held, hmid] at hH
    obtain ⟨-, -, -, a4, -, a6, a7, -⟩ := hH
    rcases hst with h | h
    · rcases a4 h with h' | ⟨_, h'⟩ <;> exact (Prod.mk.inj h').2
    · by_cases hl : LcOn p
      · exact (Prod.mk.inj (a6 h hs hl)).2
      · exact (Prod.mk.inj (a7 h hs hl)).2

/-- C191 is false of the code: with the additional fit of the second pass, even without velocity fit, every reported candidate is
fitted with amplitude offsets that the model spectrum leaves out, and under the name of the additional method. -/
theorem C191_lc_loses_offsets (p : Pars) (n : Env) (nz : Nat) (cs : List Cand) (k : Nat) (hs : p.skipSecond = false)
    (hl : LcOn p) (ha : p.ampOff = true) (hm : p.method = "hybrid" ∨ p.method = "svd" ∨ p.method = "lbfgsb")
    (x : Stage × Mgr) (hx : x ∈ (solve p n nz cs k).1) (hst : x.1 = .report) :
    (∃ f, x.2.fitter = some f ∧ f.ampOff = true) ∧ x.2.modelOff = false ∧ x.2.name = p.lc := by
  have hF := fine_of_mem hx
  obtain ⟨f, hf, hn⟩ := hF.1.main (Or.inr (Or.inr ⟨hst, hs⟩))
  have := Prod.mk.inj (hF.2.2.2.2.2.2.1 hst hs hl)
  exact ⟨⟨f, hf, hn.2.2.1.2 ⟨ha, offsets_of_name hm hn.1⟩⟩, this.2, this.1⟩

/-- The hypotheses of the two theorems are met by runs that do make such fits. -/
example : p0.skipSecond = false ∧ p0.velFit = true ∧ p0.ampOff = true ∧ LcOn p0 ∧ p0.method = "hybrid" ∧
    (∃ x ∈ (solve p0 n0 1 [⟨1, 1⟩] 1).1, x.1 = .recompute) ∧ (∃ x ∈ (solve p0 n0 1 [⟨1, 1⟩] 1).1, x.1 = .report) := by
  refine ⟨rfl, rfl, rfl, Or.inl rfl, rfl, ?_, ?_⟩ <;> decide +kernel

/-- C191 (consequence). A run by the fitter called `random`, whose refits need not reproduce a merit, reports its candidates when there
is no velocity fit; with the velocity fit the first refit that differs is taken for an internal error. -/
theorem C191_random_refused (p : Pars) (hs : p.skipSecond = false) (hm : p.method = "random") (hl : ¬ LcOn p) (n : Env)
    (nz : Nat) (cs : List Cand) (k : Nat) (x : Stage × Mgr) (hx : x ∈ (solve p n nz cs k).1) (hst : x.1 = .report) :
    (∃ f, x.2.fitter = some f ∧ f.kind = .random) ∧ (x.2.name = "random" ↔ p.velFit = false) := by
  have hF := fine_of_mem hx
  obtain ⟨f, hf, hn⟩ := hF.1.main (Or.inr (Or.inr ⟨hst, hs⟩))
  refine ⟨⟨f, hf, ?_⟩, ?_⟩
  · have := hn.1
    rw [hm] at this
    simpa [table] using this
  · have h : x.2.name = (mid p).1 := congrArg Prod.fst (hF.2.2.2.2.2.2.2.1 hst hs hl)
    rw [h]
    unfold mid velName
    cases hv : p.velFit
    · simp [hm]
    · simp only [if_true]; split_ifs <;> simp

/-- A run of the `random` fitter whose first refit differs from the recorded merit. -/
def pr (vel : Bool) : Pars := ⟨true, "random", "random", "no", "rules", false, false, vel, false, false, false, false, false⟩

/-- Fits that do not fail but never reproduce a merit. -/
def nr : Env := ⟨fun _ => none, fun _ => false⟩

example : (solve (pr false) nr 1 [⟨1, 1⟩] 1).2 ≠ .throw .INTERNAL_ERROR ∧ (solve (pr true) nr 1 [⟨1, 1⟩] 1).2 = .throw .INTERNAL_ERROR := by
  decide +kernel

/-! ## C192: unknown names -/

/-- A line ratio type that the library knows. -/
def KnownRatio (name : String) : Prop := name = "tplRatio" ∨ name = "tplCorr" ∨ name = "rules"

theorem makeRatio_known (name : String) : ((∃ r, makeRatio name = .ok r) ∧ KnownRatio name) ∨ (makeRatio name = .throw .INVALID_PARAMETER ∧ ¬ KnownRatio name) := by
  unfold makeRatio KnownRatio
  split_ifs with h1 h2 h3
  · exact Or.inl ⟨⟨_, rfl⟩, Or.inl h1⟩
  · exact Or.inl ⟨⟨_, rfl⟩, Or.inr (Or.inl h2)⟩
  · exact Or.inl ⟨⟨_, rfl⟩, Or.inr (Or.inr h3)⟩
  · exact Or.inr ⟨rfl, by rintro (h | h | h) <;> contradiction⟩

/-- C192. A run whose fitting method, line ratio type or first pass fitting method is unknown makes no fit and ends with the error of
the first unknown name, in that order. -/
theorem C192_unknown (p : Pars) (n : Env) (nz : Nat) (cs : List Cand) (k : Nat) :
    (¬ Known p.lb p.method → solve p n nz cs k = ([], .throw .INTERNAL_ERROR)) ∧
    (Known p.lb p.method → ¬ KnownRatio p.ratio → solve p n nz cs k = ([], .throw .INVALID_PARAMETER)) ∧
    (Known p.lb p.method → KnownRatio p.ratio → ¬ Known p.lb p.firstMethod → solve p n nz cs k = ([], .throw .INTERNAL_ERROR)) := by
  refine ⟨fun h => ?_, fun h hr => ?_, fun h hr hf => ?_⟩
  · rcases makeFitter_ok p.lb p.method p.ampOff p.lbdaOff with ⟨f, _, hn⟩ | ⟨e, -⟩
    · exact absurd (named_known hn) h
    · unfold solve newMgr construct
      rw [e]; rfl
  · rcases makeFitter_ok p.lb p.method p.ampOff p.lbdaOff with ⟨f, e, hn⟩ | ⟨-, e⟩
    · rcases makeRatio_known p.ratio with ⟨-, h'⟩ | ⟨e', -⟩
      · exact absurd h' hr
      · unfold solve newMgr construct
        rw [e, Res.bind_ok, e']; rfl
    · exact absurd h e
  · rcases makeFitter_ok p.lb p.method p.ampOff p.lbdaOff with ⟨f, e, hn⟩ | ⟨-, e⟩
    · rcases makeRatio_known p.ratio with ⟨⟨r, e'⟩, -⟩ | ⟨-, h'⟩
      · rcases makeFitter_ok p.lb p.firstMethod false false with ⟨_, _, hn⟩ | ⟨e'', -⟩
        · exact absurd (named_known hn) hf
        · unfold solve newMgr construct
          rw [e, Res.bind_ok, e', Res.bind_ok]
          simp only [andThen, change, setPass, setFitting, if_true, e'']
          rfl
      · exact absurd hr h'
    · exact absurd h e

/-- C192. With known names the first pass makes its fits: no error comes before the first of them. -/
theorem C192_known (p : Pars) (n : Env) (nz : Nat) (cs : List Cand) (k : Nat) (h1 : Known p.lb p.method) (h2 : KnownRatio p.ratio)
    (h3 : Known p.lb p.firstMethod) : ∃ m l, (solve p n (nz + 1) cs k).1 = (.first, m) :: l := by
  obtain ⟨f, e, hn⟩ := (makeFitter_ok p.lb p.method p.ampOff p.lbdaOff).resolve_right fun h => h.2 h1
  obtain ⟨⟨r, e'⟩, -⟩ := (makeRatio_known p.ratio).resolve_right fun h => h.2 h2
  obtain ⟨g, e'', hn'⟩ := (makeFitter_ok p.lb p.firstMethod false false).resolve_right fun h => h.2 h3
  have hm0 : newMgr p = .ok ⟨p.method, some f, p.ampOff, r, false, false, false, false⟩ := by
    unfold newMgr construct
    rw [e, Res.bind_ok, e', Res.bind_ok]
  obtain ⟨m1, hm1⟩ : ∃ m1, setPass p 1 ⟨p.method, some f, p.ampOff, r, false, false, false, false⟩ = .ok m1 := by
    unfold setPass setFitting
    rw [if_pos rfl, e'']
    exact ⟨_, rfl⟩
  have hF := setPass_one (newMgr_ok hm0).2.1 hm1
  obtain ⟨q, hq, -⟩ := hF.fit
  have key : ∃ S, Tri (Fine p) [(.first, m1)] (solve p n (nz + 1) cs k) (fun _ => True) S := by
    have e0 : ∀ (h : Hist) (m : Mgr) (f : Hist → Mgr → Out), andThen (h, .ok m) f = f h m := fun _ _ _ => rfl
    unfold solve
    rw [hm0, e0]
    rw [show change (setPass p 1) [] ⟨p.method, some f, p.ampOff, r, false, false, false, false⟩ = ([], .ok m1) from by
      unfold change; rw [hm1], e0]
    rw [show fits n .first (nz + 1) [] m1 = andThen (fitOnce n .first [] m1) (fits n .first nz) from rfl]
    unfold fitOnce
    rw [if_neg (by rw [hq]; exact nofun)]
    cases n.fails ([] ++ [(Stage.first, m1)]) with
    | some er => exact ⟨[], tri_throw _⟩
    | none =>
      refine ⟨_, tri_andThen (P := First p) (tri_fits n .first (fun m hm => by obtain ⟨f, hf, _⟩ := hm.fit; rw [hf]; exact nofun)
        (fun m hm => hm.fine (Or.inl rfl)) nz _ m1 hF) fun h2 m2 hm2 => tri_rest p n cs k h2 m2 hm2⟩
  obtain ⟨S, -, l, hl, -⟩ := key
  exact ⟨m1, l, hl⟩

/-- C192. No additional fit is made, and no error raised, for a value of its parameter other than its two names. -/
theorem C192_lc (p : Pars) (n : Env) (nz : Nat) (cs : List Cand) (k : Nat) (hl : ¬ LcOn p) :
    (∀ x ∈ (solve p n nz cs k).1, x.1 ≠ .lc) ∧ ∀ s : String, ¬ LcOn { p with lc := s } → solve { p with lc := s } n nz cs k = solve p n nz cs k := by
  refine ⟨fun x hx h => hl ((fine_of_mem hx).2.2.2.2.2.1 h).2, fun s hs => ?_⟩
  have e1 : lcFit p n cs = fun h m => (h, .ok m) := by
    funext h m
    exact if_neg hl
  have e2 : lcFit { p with lc := s } n cs = fun h m => (h, .ok m) := by
    funext h m
    exact if_neg hs
  unfold solve secondPass
  rw [e1, e2]
  rfl

/-- The hypotheses of the three theorems. -/
example : Known false "svd" ∧ ¬ Known false "lbfgsb" ∧ Known true "lbfgsb" ∧ ¬ Known true "nofit" ∧ KnownRatio "rules" ∧
    ¬ KnownRatio "tplratio" ∧ ¬ LcOn (pr true) ∧ LcOn p0 := by
  simp [Known, KnownRatio, LcOn, table, pr, p0]

/-! ## The check of the reported candidates -/

theorem report_succ (n : Env) (k : Nat) (h : Hist) (m : Mgr) :
    report n (k + 1) h m = andThen (reportOne n () h m) (report n k) := rfl

theorem reportOne_cases (n : Env) (h : Hist) (m : Mgr) (hf : m.fitter ≠ none) :
    reportOne n () h m = (h ++ [(.report, m)], match n.fails (h ++ [(.report, m)]) with
      | some e => .throw e
      | none => if n.same (h ++ [(.report, m)]) = false ∧ m.name ≠ "random" then .throw .INTERNAL_ERROR else .ok m) := by
  unfold reportOne fitOnce
  rw [if_neg hf]
  cases n.fails (h ++ [(Stage.report, m)]) with
  | some e => rfl
  | none =>
    unfold andThen
    simp only [Option.map_none, Option.getD_none]
    split <;> rfl

/-- **C191: the refit of the reported candidates.** The report of `k` candidates succeeds exactly when each is refitted without failure and, unless the fitting method in force is called
`random`, each refit finds the merit recorded before. -/
theorem C191_report (n : Env) (k : Nat) (h : Hist) (m : Mgr) (hf : m.fitter ≠ none) (h' : Hist) (m' : Mgr) :
    report n k h m = (h', .ok m') ↔ m' = m ∧ h' = h ++ List.replicate k (.report, m) ∧
      ∀ j < k, n.fails (h ++ List.replicate (j + 1) (.report, m)) = none ∧ (n.same (h ++ List.replicate (j + 1) (.report, m)) = true ∨ m.name = "random") := by
  induction k generalizing h with
  | zero =>
    show (h, Res.ok m) = (h', Res.ok m') ↔ _
    constructor
    · intro e
      injection e with e1 e2
      injection e2 with e2
      subst e1 e2
      exact ⟨rfl, by simp, fun j hj => absurd hj (Nat.not_lt_zero _)⟩
    · rintro ⟨rfl, rfl, -⟩
      simp
  | succ k ih =>
    have hr : ∀ j, h ++ List.replicate (j + 1) (Stage.report, m) = (h ++ [(Stage.report, m)]) ++ List.replicate j (Stage.report, m) := by
      intro j; rw [List.append_assoc]; rfl
    rw [report_succ, reportOne_cases n h m hf]
    cases hfl : n.fails (h ++ [(Stage.report, m)]) with
    | some e =>
      constructor
      · intro e1; cases e1
      · rintro ⟨-, -, h3⟩
        have := (h3 0 (Nat.succ_pos _)).1
        rw [hr, List.replicate_zero, List.append_nil, hfl] at this
        cases this
    | none =>
      by_cases hc : n.same (h ++ [(Stage.report, m)]) = false ∧ m.name ≠ "random"
      · simp only
        rw [if_pos hc]
        constructor
        · intro e1; cases e1
        · rintro ⟨-, -, h3⟩
          have := (h3 0 (Nat.succ_pos _)).2
          rw [hr, List.replicate_zero, List.append_nil, hc.1] at this
          rcases this with t | t
          · cases t
          · exact absurd t hc.2
      · simp only
        rw [if_neg hc]
        show report n k (h ++ [(Stage.report, m)]) m = (h', Res.ok m') ↔ _
        rw [ih, hr]
        refine and_congr_right fun _ => and_congr_right fun _ => ?_
        constructor
        · intro h3 j hj
          cases j with
          | zero =>
            rw [hr, List.replicate_zero, List.append_nil]
            refine ⟨hfl, ?_⟩
            rcases Bool.eq_false_or_eq_true (n.same (h ++ [(Stage.report, m)])) with t | t
            · exact Or.inl t
            · exact Or.inr (Classical.byContradiction fun hn => hc ⟨t, hn⟩)
          | succ j => rw [hr]; exact h3 j (by omega)
        · intro h3 j hj
          have := h3 (j + 1) (by omega)
          rw [hr] at this
          exact this

/-- A refit which differs is refused at once. -/
theorem C191_mismatch (n : Env) (k : Nat) (h : Hist) (m : Mgr) (hf : m.fitter ≠ none) (h1 : n.fails (h ++ [(.report, m)]) = none)
    (h2 : n.same (h ++ [(.report, m)]) = false) (h3 : m.name ≠ "random") :
    report n (k + 1) h m = (h ++ [(.report, m)], .throw .INTERNAL_ERROR) := by
  rw [report_succ, reportOne_cases n h m hf, h1]
  simp only
  rw [if_pos ⟨h2, h3⟩]
  rfl

/-- Both cases of `C191_report` and the hypotheses of `C191_mismatch` are met. -/
example : (∃ h' m', report ⟨fun _ => none, fun _ => false⟩ 2 [] ⟨"random", some ⟨.random, false, false⟩, false, .rules, false, false, false, false⟩ = (h', .ok m')) ∧
    report ⟨fun _ => none, fun h => h.length != 2⟩ 3 [] ⟨"svd", some ⟨.svd, false, false⟩, false, .rules, false, false, false, false⟩ =
      (List.replicate 2 (.report, ⟨"svd", some ⟨.svd, false, false⟩, false, .rules, false, false, false, false⟩), .throw .INTERNAL_ERROR) :=
  ⟨⟨_, _, rfl⟩, rfl⟩

end Amazed.FitStage
