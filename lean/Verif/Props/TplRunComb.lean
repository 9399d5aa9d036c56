import Verif.Props.TplRunStored
import Verif.Props.TplRunReads

set_option linter.unusedVariables false
set_option linter.unusedSectionVars false

/-! # C186: what the template combination solver stores, and what is kept of the store -/

namespace Amazed
namespace TplRun
open TplCat

variable {τ L R P C F M : Type}

theorem putAll_kept (path : String) : ∀ (l : List (String × Val R P C M)) (g : ResultsMap (Val R P C M)) (k : String),
    (∀ x ∈ l, k ≠ ResultStore.storeKey path x.1) → putAll path l g k = g k := by
  intro l
  induction l with
  | nil => intro g k _; rfl
  | cons x xs ih =>
    intro g k hk
    have e : putAll path (x :: xs) g = putAll path xs (fun k => if k = ResultStore.storeKey path x.1 then some x.2 else g k) := rfl
    rw [e, ih _ k fun y hy => hk y (List.mem_cons_of_mem _ hy), if_neg (hk x (List.mem_cons_self ..))]

/-- **C186** (operator). The fits are made with the operator in Fourier space when it is asked for, else with the one with photometry when that is asked for, else with the plain one. -/
theorem C186_operator (o : TfOpts) : (oper o = .fft ↔ o.fft = true) ∧ (oper o = .phot ↔ o.fft = false ∧ o.phot = true) ∧ (oper o = .plain ↔ o.fft = false ∧ o.phot = false) := by
  unfold oper
  cases o.fft <;> cases o.phot <;> decide

/-- **C186, kept.** No result stored before a template fitting run is changed by it, global or for a template. -/
theorem C186_kept (n : TfEnv τ R P C F M) (o : TfOpts) (path category : String) (c : Cat τ L) (s : ResultStore (Val R P C M)) :
    (∀ k v, s.global k = some v → (tfCompute n o path category ⟨c, s⟩).1.store.global k = some v) ∧
    (∀ t k v, val s.perTemplate t k = some v → val (tfCompute n o path category ⟨c, s⟩).1.store.perTemplate t k = some v) := by
  obtain ⟨vs, done, h1, h2, h3, h4, h5, h6⟩ := C186_template_fitting n o path category c s
  refine ⟨fun k v hv => ?_, fun t k v hv => (h4.1 t k v).2 (Or.inl hv)⟩
  rw [h1, putAll_kept, hv]
  intro x hx he
  have := h3 x hx
  rw [← he, hv] at this
  cases this

/-- The model of a candidate of the template combination is computed with the templates `ts`. -/
def CombModelOf (n : TcEnv τ R P C F M) (scope : String) (ts : List (Option τ)) (s : ResultStore (Val R P C M)) (x : C) (y : C × M) : Prop :=
  y.1 = x ∧ ∃ f, n.params scope s x = .ok f ∧ n.model ts x f = .ok (some y.2)

theorem tcExtremum_spec (n : TcEnv τ R P C F M) (scope : String) (ts : List (Option τ)) (x : C) (w : World τ L R P C M) :
    (tcExtremum n scope ts x w).1.store = w.store ∧ ∀ y, (tcExtremum n scope ts x w).2 = .ok y → CombModelOf n scope ts w.store x y := by
  unfold tcExtremum
  rw [next_eq]
  unfold look
  dsimp only
  cases hb : n.params scope w.store x with
  | throw e => exact ⟨rfl, fun y hy => nomatch hy⟩
  | ub => exact ⟨rfl, fun y hy => nomatch hy⟩
  | ok b =>
    dsimp only
    rw [next_eq]
    dsimp only
    rw [next_setLog, next_eq]
    dsimp only
    cases hm : n.model ts x b with
    | throw e => exact ⟨rfl, fun y hy => nomatch hy⟩
    | ub => exact ⟨rfl, fun y hy => nomatch hy⟩
    | ok m =>
      dsimp only
      rw [next_setLog]
      refine ⟨rfl, fun y hy => ?_⟩
      cases m with
      | none => cases hy
      | some m => cases hy; exact ⟨rfl, b, hb, hm⟩

theorem tcCollect (n : TcEnv τ R P C F M) (scope : String) (ts : List (Option τ)) :
    ∀ (l : List C) (w : World τ L R P C M), (collect (tcExtremum n scope ts) l w).1.store = w.store ∧
      ∀ ys, (collect (tcExtremum n scope ts) l w).2 = .ok ys → List.Forall₂ (CombModelOf n scope ts w.store) l ys := by
  intro l
  induction l with
  | nil => intro w; exact ⟨rfl, fun ys hy => by cases hy; exact List.Forall₂.nil⟩
  | cons x xs ih =>
    intro w
    obtain ⟨o1, o2⟩ := tcExtremum_spec n scope ts x w
    have e : collect (tcExtremum n scope ts) (x :: xs) = next (tcExtremum n scope ts x) fun y =>
      next (collect (tcExtremum n scope ts) xs) fun ys => look (L := L) fun _ => .ok (y :: ys) := rfl
    rw [e, next_eq]
    cases h1 : (tcExtremum n scope ts x w).2 with
    | throw e => exact ⟨o1, fun y hy => nomatch hy⟩
    | ub => exact ⟨o1, fun y hy => nomatch hy⟩
    | ok y =>
      obtain ⟨i1, i2⟩ := ih (tcExtremum n scope ts x w).1
      dsimp only
      rw [next_eq]
      cases h2 : (collect (tcExtremum n scope ts) xs (tcExtremum n scope ts x w).1).2 with
      | throw e => exact ⟨i1.trans o1, fun y hy => nomatch hy⟩
      | ub => exact ⟨i1.trans o1, fun y hy => nomatch hy⟩
      | ok ys =>
        refine ⟨i1.trans o1, fun zs hz => ?_⟩
        cases hz
        refine List.Forall₂.cons (o2 y h1) ?_
        have := i2 ys h2
        rw [o1] at this
        exact this

theorem next_assoc {A B D : Type} (x : Step τ L R P C M A) (f : A → Step τ L R P C M B) (g : B → Step τ L R P C M D) :
    next (next x f) g = next x fun a => next (f a) g := by
  funext w
  rw [next_eq, next_eq, next_eq]
  cases (x w).2 with
  | ok a => exact (next_eq (f a) g _).symm
  | throw e => rfl
  | ub => rfl

/-- The results of the fits as they are stored. -/
def fitVals (rs : List R) : List (Val R P C M) := rs.map .fit

/-- The loop over the components, followed by steps that store results under `names`: the results of the components fitted come first. -/
theorem tcLoop_runs {B : Type} (n : TcEnv τ R P C F M) (path : String) (ts : List (Option τ)) (c : Cat τ L) (nms : List String)
    (f : Unit → Step τ L R P C M B) (Q : ResultStore (Val R P C M) → List (Val R P C M) → B → Prop) (hf : ∀ s, Runs path nms (f ()) ⟨c, s⟩ (Q s)) :
    ∀ (tys : List TplSolve.EType) (s : ResultStore (Val R P C M)), (tys.map TplSolve.tcScope ++ nms).Nodup →
    ∃ tys1 tys2, tys = tys1 ++ tys2 ∧ Runs path (tys1.map TplSolve.tcScope ++ nms) (next (tcLoop n path ts tys) f) ⟨c, s⟩ (fun vs b =>
      ∃ rs vs', vs = fitVals rs ++ vs' ∧ List.Forall₂ (fun ty r => n.fit ts ty = .ok (some r)) tys1 rs ∧
        (∀ ty tys3, tys2 = ty :: tys3 → n.fit ts ty = .ok none) ∧
        Q ⟨putAll path ((tys1.map TplSolve.tcScope).zip (fitVals rs)) s.global, s.perTemplate⟩ vs' b) := by
  intro tys
  induction tys with
  | nil =>
    intro s _
    refine ⟨[], [], rfl, ?_⟩
    obtain ⟨vs, h1, h2, h3, h4, h5⟩ := hf s
    exact ⟨vs, h1, h2, h3, h4, fun b hb => ⟨(h5 b hb).1, [], vs, rfl, List.Forall₂.nil, fun _ _ h => (nomatch h), (h5 b hb).2⟩⟩
  | cons ty tys ih =>
    intro s hnd
    have e : next (tcLoop n path ts (ty :: tys)) f ⟨c, s⟩ = next (look fun _ => n.fit ts ty) (fun r => next (match r with
      | none => look fun _ => .ok ()
      | some r => next (put path (TplSolve.tcScope ty) (.fit r)) fun _ => tcLoop n path ts tys) f) ⟨c, s⟩ := by
      have e1 : tcLoop (L := L) n path ts (ty :: tys) = next (look fun _ => n.fit ts ty) fun r => (match r with
        | none => look fun _ => .ok ()
        | some r => next (put path (TplSolve.tcScope ty) (.fit r)) fun _ => tcLoop n path ts tys) := rfl
      rw [e1, next_assoc]
    have conv : ∀ names' Q', Runs path names' (next (look fun _ => n.fit ts ty) (fun r => next (match r with
      | none => look fun _ => .ok ()
      | some r => next (put path (TplSolve.tcScope ty) (.fit r)) fun _ => tcLoop n path ts tys) f)) ⟨c, s⟩ Q' →
      Runs path names' (next (tcLoop n path ts (ty :: tys)) f) ⟨c, s⟩ Q' := by
      intro names' Q' h
      unfold Runs at h ⊢
      rw [e]
      exact h
    cases hr : n.fit ts ty with
    | throw er =>
      refine ⟨[], ty :: tys, rfl, conv _ _ (Runs.step rfl fun r h => ?_)⟩
      unfold look at h; rw [hr] at h; cases h
    | ub =>
      refine ⟨[], ty :: tys, rfl, conv _ _ (Runs.step rfl fun r h => ?_)⟩
      unfold look at h; rw [hr] at h; cases h
    | ok r =>
      cases r with
      | none =>
        refine ⟨[], ty :: tys, rfl, conv _ _ (Runs.step rfl fun r h => ?_)⟩
        unfold look at h; rw [hr] at h; cases h
        obtain ⟨vs, h1, h2, h3, h4, h5⟩ := hf s
        exact ⟨vs, h1, h2, h3, h4, fun b hb => ⟨(h5 b hb).1, [], vs, rfl, List.Forall₂.nil, fun _ _ h => by cases h; exact hr, (h5 b hb).2⟩⟩
      | some r =>
        rw [List.map_cons, List.cons_append, List.nodup_cons] at hnd
        obtain ⟨t1, t2, ht, hruns⟩ := ih ⟨fun k => if k = ResultStore.storeKey path (TplSolve.tcScope ty) then some (.fit r) else s.global k, s.perTemplate⟩ hnd.2
        refine ⟨ty :: t1, t2, by rw [ht]; rfl, conv _ _ (Runs.step rfl fun r' h => ?_)⟩
        unfold look at h; rw [hr] at h; cases h
        have e2 : ∀ w : World τ L R P C M, next (next (put path (TplSolve.tcScope ty) (.fit r)) fun _ => tcLoop n path ts tys) f w =
            next (put path (TplSolve.tcScope ty) (.fit r)) (fun _ => next (tcLoop n path ts tys) f) w := by
          intro w
          rw [next_assoc]
        have conv2 : ∀ names' Q', Runs path names' (next (put path (TplSolve.tcScope ty) (.fit r)) (fun _ => next (tcLoop n path ts tys) f)) ⟨c, s⟩ Q' →
            Runs path names' (next (next (put path (TplSolve.tcScope ty) (.fit r)) fun _ => tcLoop n path ts tys) f) ⟨c, s⟩ Q' := by
          intro names' Q' h
          unfold Runs at h ⊢
          rw [e2]
          exact h
        refine conv2 _ _ (Runs.put ?_ ?_)
        · intro hm
          refine hnd.1 ?_
          have hm' := List.mem_append.1 hm
          rw [List.mem_append]
          rcases hm' with hm | hm
          · left
            rw [ht, List.map_append]
            exact List.mem_append_left _ hm
          · exact Or.inr hm
        · obtain ⟨vs, h1, h2, h3, h4, h5⟩ := hruns
          refine ⟨vs, h1, h2, h3, h4, fun b hb => ⟨(h5 b hb).1, ?_⟩⟩
          obtain ⟨rs, vs', g1, g2, g3, g4⟩ := (h5 b hb).2
          exact ⟨r :: rs, vs', by rw [g1]; rfl, List.Forall₂.cons hr g2, g3, g4⟩

/-- What a template combination run that ends well has done: it read the templates `ts`, fitted components in order (all, unless the operator gave no
result), and stored the PDF found from these fits, twice, its candidates and, for each, its model, computed with the templates `ts`. -/
def CombComplete (n : TcEnv τ R P C F M) (path : String) (cs : TplSolve.Comp × String) (ts : List (Option τ)) (tys1 tys2 : List TplSolve.EType)
    (s : ResultStore (Val R P C M)) (vs : List (Val R P C M)) (best : C × M) : Prop :=
  ∃ rs p cands l, List.Forall₂ (fun ty r => n.fit ts ty = .ok (some r)) tys1 rs ∧ (∀ ty tys3, tys2 = ty :: tys3 → n.fit ts ty = .ok none) ∧
    n.pdf cs.2 ⟨putAll path ((tys1.map TplSolve.tcScope).zip (fitVals rs)) s.global, s.perTemplate⟩ = .ok (p, cands) ∧
    List.Forall₂ (CombModelOf n cs.2 ts ⟨putAll path ((tys1.map TplSolve.tcScope ++ ["pdf", "pdf_params", "candidatesresult"]).zip
      (fitVals rs ++ [.pdf p, .pdf p, .cands cands])) s.global, s.perTemplate⟩) cands l ∧ l[0]? = some best ∧
    vs = fitVals rs ++ [.pdf p, .pdf p, .cands cands, .ext l]

/-- **C186, template combination.** However a template combination run ends, it adds global results only, under the names of the first components and then
under the four names, in order; when it ends well they are those of the templates of its category in the sampling of the catalogue, which are also the
templates of the models. -/
theorem C186_template_combination (n : TcEnv τ R P C F M) (o : TcOpts) (path category : String) (c : Cat τ L) (s : ResultStore (Val R P C M)) :
    (tcCompute n o path category ⟨c, s⟩).1.store = s ∧ (∀ b, (tcCompute n o path category ⟨c, s⟩).2 ≠ .ok b) ∨
    ∃ cs tys1 tys2, TplSolve.tcComponent o.component = .ok cs ∧ o.interp = "lin" ∧ n.check (TplCat.get c c.ortho c.log category) = .ok () ∧
      cs.1.types = tys1 ++ tys2 ∧
      Runs path (tys1.map TplSolve.tcScope ++ names) (tcCompute n o path category) ⟨c, s⟩
        (CombComplete n path cs (TplCat.get c c.ortho c.log category) tys1 tys2 s) := by
  have hcur : ∀ {B : Type} (f : List (Option τ) → Step τ L R P C M B) (s' : ResultStore (Val R P C M)),
      next (current category) f ⟨c, s'⟩ = f (TplCat.get c c.ortho c.log category) ⟨c, s'⟩ := by
    intro B f s'
    rw [next_eq]
    unfold current look templateList
    simp only [List.flatMap_cons, List.flatMap_nil, List.append_nil]
  unfold tcCompute
  cases hcs : TplSolve.tcComponent o.component with
  | throw e => exact Or.inl ⟨rfl, fun b h => nomatch h⟩
  | ub => exact Or.inl ⟨rfl, fun b h => nomatch h⟩
  | ok cs =>
    by_cases hi : o.interp ≠ "lin"
    · left
      rw [next_look, if_pos hi]
      exact ⟨rfl, fun b h => nomatch h⟩
    rw [if_neg hi]
    cases hch : n.check (TplCat.get c c.ortho c.log category) with
    | throw e =>
      left
      rw [next_look, next_look, hcur, hch]
      exact ⟨rfl, fun b h => nomatch h⟩
    | ub =>
      left
      rw [next_look, next_look, hcur, hch]
      exact ⟨rfl, fun b h => nomatch h⟩
    | ok u =>
      right
      obtain ⟨t1, t2, ht, hr⟩ := tcLoop_runs n path (TplCat.get c c.ortho c.log category) c names (fun _ =>
          next (look fun w => n.pdf cs.2 w.store) fun pc =>
          next (put path "pdf" (.pdf pc.1)) fun _ =>
          next (put path "pdf_params" (.pdf pc.1)) fun _ =>
          next (put path "candidatesresult" (.cands pc.2)) fun _ =>
          next (current category) fun ts =>
          next (collect (tcExtremum n cs.2 ts) pc.2) fun l =>
          next (put path "extrema_results" (.ext l)) fun _ =>
          look fun _ => Res.at_ l 0)
        (fun s' vs' best => ∃ p cands l, n.pdf cs.2 s' = .ok (p, cands) ∧ List.Forall₂ (CombModelOf n cs.2 (TplCat.get c c.ortho c.log category)
            ⟨putAll path [("pdf", .pdf p), ("pdf_params", .pdf p), ("candidatesresult", .cands cands)] s'.global, s'.perTemplate⟩) cands l ∧
            l[0]? = some best ∧ vs' = [.pdf p, .pdf p, .cands cands, .ext l])
        (by
          intro s'
          unfold names
          refine Runs.step rfl fun pc hpc => Runs.put (by decide) (Runs.put (by decide) (Runs.put (by decide) ?_))
          have e : ∀ (names' : List String) (Q' : List (Val R P C M) → C × M → Prop) (s'' : ResultStore (Val R P C M)),
              Runs path names' (next (collect (tcExtremum n cs.2 (TplCat.get c c.ortho c.log category)) pc.2) fun l =>
                next (put path "extrema_results" (.ext l)) fun _ => look fun _ => Res.at_ l 0) ⟨c, s''⟩ Q' →
              Runs path names' (next (current category) fun ts => next (collect (tcExtremum n cs.2 ts) pc.2) fun l =>
                next (put path "extrema_results" (.ext l)) fun _ => look fun _ => Res.at_ l 0) ⟨c, s''⟩ Q' := by
            intro names' Q' s'' h
            unfold Runs at h ⊢
            rw [hcur]
            exact h
          refine e _ _ _ (Runs.step (tcCollect n cs.2 _ pc.2 _).1 fun l hl => ?_)
          have hcol := (tcCollect n cs.2 _ pc.2 _).2 l hl
          exact Runs.put (by simp) ⟨[], rfl, rfl, by simp, by simp, fun b hb => ⟨rfl, pc.1, pc.2, l, hpc, hcol, Res.at_eq_ok.1 hb, rfl⟩⟩)
        cs.1.types s (by
          cases hc : cs.1 with
          | one t => cases t <;> decide
          | all => decide)
      refine ⟨cs, t1, t2, rfl, by simpa using hi, rfl, ht, ?_⟩
      have e : ∀ w : World τ L R P C M, w.cat = c → (next (look fun _ => Res.ok cs) (fun cs => next (look fun _ => Res.ok ()) fun _ =>
          next (current category) fun ts => next (look fun _ => n.check ts) fun _ => next (tcLoop n path ts cs.1.types) fun _ =>
          next (look fun w => n.pdf cs.2 w.store) fun pc =>
          next (put path "pdf" (.pdf pc.1)) fun _ =>
          next (put path "pdf_params" (.pdf pc.1)) fun _ =>
          next (put path "candidatesresult" (.cands pc.2)) fun _ =>
          next (current category) fun ts =>
          next (collect (tcExtremum n cs.2 ts) pc.2) fun l =>
          next (put path "extrema_results" (.ext l)) fun _ =>
          look fun _ => Res.at_ l 0) : Step τ L R P C M (C × M)) w = next (tcLoop n path (TplCat.get c c.ortho c.log category) cs.1.types) (fun _ =>
          next (look fun w => n.pdf cs.2 w.store) fun pc =>
          next (put path "pdf" (.pdf pc.1)) fun _ =>
          next (put path "pdf_params" (.pdf pc.1)) fun _ =>
          next (put path "candidatesresult" (.cands pc.2)) fun _ =>
          next (current category) fun ts =>
          next (collect (tcExtremum n cs.2 ts) pc.2) fun l =>
          next (put path "extrema_results" (.ext l)) fun _ =>
          look fun _ => Res.at_ l 0) w := by
        rintro ⟨c', s'⟩ hc'
        simp only at hc'
        subst hc'
        rw [next_look, next_look, hcur, hch, next_look]
      obtain ⟨vs, h1, h2, h3, h4, h5⟩ := hr
      unfold Runs
      rw [e _ rfl]
      refine ⟨vs, h1, h2, h3, h4, fun b hb => ⟨(h5 b hb).1, ?_⟩⟩
      obtain ⟨rs, vs', g1, g2, g3, p, cands, l, g4, g5, g6, g7⟩ := (h5 b hb).2
      refine ⟨rs, p, cands, l, g2, g3, g4, ?_, g6, by rw [g1, g7]⟩
      have : putAll path ((t1.map TplSolve.tcScope ++ ["pdf", "pdf_params", "candidatesresult"]).zip (fitVals rs ++ [.pdf p, .pdf p, .cands cands])) s.global =
          putAll path [("pdf", .pdf p), ("pdf_params", .pdf p), ("candidatesresult", .cands cands)]
            (putAll path ((t1.map TplSolve.tcScope).zip (fitVals rs)) s.global) := by
        rw [List.zip_append (by unfold fitVals; rw [List.length_map, List.length_map, g2.length_eq])]
        unfold putAll
        rw [List.foldl_append]
        rfl
      rw [this]
      exact g5

/-- An FFT run that ends well: the fit of the log-sampled template 2 is stored for the template, and the model is that of the linear template 1. -/
example : (Demo.good.run (initFlags Demo.world)).2 = .ok (5, 1) ∧
    (match val (Demo.good.run (initFlags Demo.world)).1.store.perTemplate "t" "galaxy.tf.templatefitting" with | some (.fit r) => r | _ => 0) = 2 ∧
    (names.all fun nm => ((Demo.good.run (initFlags Demo.world)).1.store.global (ResultStore.storeKey "galaxy.tf" nm)).isSome) = true := by
  decide +kernel

/-- A template combination that ends well. -/
example : ((Demo.combination "galaxy").run (initFlags Demo.world)).2 = .ok (7, 1) ∧
    (("tplcombination" :: names).all fun nm =>
      (((Demo.combination "galaxy").run (initFlags Demo.world)).1.store.global (ResultStore.storeKey "galaxy.tc" nm)).isSome) = true := by
  decide +kernel

end TplRun
end Amazed
