import Verif.Props.TplRunProps
import Mathlib.Data.List.Forall2

set_option linter.unusedVariables false
set_option linter.unusedSectionVars false

/-! # C186: what the template solvers store -/

namespace Amazed
namespace TplRun
open TplCat

variable {τ L R P C F M : Type}

/-- The global results with those of the list added under their names. -/
def putAll (path : String) (l : List (String × Val R P C M)) (g : ResultsMap (Val R P C M)) : ResultsMap (Val R P C M) :=
  l.foldl (fun g x => fun k => if k = ResultStore.storeKey path x.1 then some x.2 else g k) g

/-- A run that stores global results under the names in order, all of them when it ends well, with `Q` of the values stored and of its value, and stores no
result for a template. -/
def Runs {A : Type} (path : String) (names : List String) (x : Step τ L R P C M A) (w : World τ L R P C M) (Q : List (Val R P C M) → A → Prop) : Prop :=
  ∃ vs : List (Val R P C M), (x w).1.store.global = putAll path (names.zip vs) w.store.global ∧ (x w).1.store.perTemplate = w.store.perTemplate ∧
    vs.length ≤ names.length ∧ (∀ y ∈ names.zip vs, w.store.global (ResultStore.storeKey path y.1) = none) ∧
    ∀ b, (x w).2 = .ok b → vs.length = names.length ∧ Q vs b

theorem Runs.step {A B : Type} {path : String} {names : List String} {x : Step τ L R P C M A} {f : A → Step τ L R P C M B} {w : World τ L R P C M}
    {Q : List (Val R P C M) → B → Prop} (hs : (x w).1.store = w.store) (h : ∀ a, (x w).2 = .ok a → Runs path names (f a) (x w).1 Q) :
    Runs path names (next x f) w Q := by
  unfold Runs
  rw [next_eq]
  cases hx : (x w).2 with
  | ok a => have := h a hx; unfold Runs at this; rw [hs] at this; exact this
  | throw e => exact ⟨[], by simp [putAll, hs], by simp [hs], by simp, by simp, fun b hb => nomatch hb⟩
  | ub => exact ⟨[], by simp [putAll, hs], by simp [hs], by simp, by simp, fun b hb => nomatch hb⟩

theorem Runs.put {B : Type} {path nm : String} {names : List String} {v : Val R P C M} {f : Unit → Step τ L R P C M B} {w : World τ L R P C M}
    {Q : List (Val R P C M) → B → Prop} (hnm : nm ∉ names)
    (h : Runs path names (f ()) ⟨w.cat, { w.store with global := fun k => if k = ResultStore.storeKey path nm then some v else w.store.global k }⟩
      (fun vs b => Q (v :: vs) b)) : Runs path (nm :: names) (next (TplRun.put path nm v) f) w Q := by
  unfold Runs
  rw [next_eq]
  unfold TplRun.put ResultStore.storeGlobal ResultStore.storeResult
  cases hk : w.store.global (ResultStore.storeKey path nm) with
  | some u => exact ⟨[], by simp [putAll], rfl, by simp, by simp, fun b hb => nomatch hb⟩
  | none =>
    obtain ⟨vs, h1, h0, h2, h3, h4⟩ := h
    refine ⟨v :: vs, h1, h0, by simp only [List.length_cons]; omega, ?_, fun b hb => ?_⟩
    · intro y hy
      rw [List.zip_cons_cons, List.mem_cons] at hy
      rcases hy with rfl | hy
      · exact hk
      · have hne : ResultStore.storeKey path y.1 ≠ ResultStore.storeKey path nm := fun he => hnm (storeKey_inj he ▸ (List.of_mem_zip hy).1)
        have := h3 y hy
        simp only [if_neg hne] at this
        exact this
    · obtain ⟨g1, g2⟩ := h4 b hb
      exact ⟨by simp only [List.length_cons, g1], g2⟩

/-- The result stored for a template under a name. -/
def val (s : String → Option (ResultsMap (Val R P C M))) (tpl key : String) : Option (Val R P C M) := (s tpl).bind fun m => m key

/-- The results of the fits of the list are stored, each under the name of its template and of its component, besides those that were in the store. -/
def Grew (n : TfEnv τ R P C F M) (op : Oper) (path : String) (s s' : String → Option (ResultsMap (Val R P C M))) (done : List (τ × TplSolve.EType)) : Prop :=
  (∀ tpl key v, val s' tpl key = some v ↔ val s tpl key = some v ∨ ∃ p ∈ done, tpl = n.nm.name p.1 ∧ key = ResultStore.storeKey path (TplSolve.tfScope p.2) ∧
    ∃ r, v = .fit r ∧ n.fit op p.1 p.2 = .ok r) ∧ ∀ p ∈ done, ∃ r, n.fit op p.1 p.2 = .ok r

theorem putTpl_spec (path t nm : String) (v : Val R P C M) (w : World τ L R P C M) :
    (putTpl path t nm v w).1.cat = w.cat ∧ (putTpl path t nm v w).1.store.global = w.store.global ∧
    ((putTpl path t nm v w).2 = .ok () ∧ val w.store.perTemplate t (ResultStore.storeKey path nm) = none ∧
      (∀ t' k, val (putTpl path t nm v w).1.store.perTemplate t' k =
        if t' = t ∧ k = ResultStore.storeKey path nm then some v else val w.store.perTemplate t' k) ∨
     (putTpl path t nm v w).2 = .throw .INTERNAL_ERROR ∧ ∀ t' k, val (putTpl path t nm v w).1.store.perTemplate t' k = val w.store.perTemplate t' k) := by
  unfold putTpl ResultStore.storePerTemplate ResultStore.storeResult
  refine ⟨rfl, rfl, ?_⟩
  cases hm : w.store.perTemplate t with
  | none =>
    left
    refine ⟨rfl, by simp [val, hm], fun t' k => ?_⟩
    unfold val
    simp only
    by_cases ht : t' = t
    · subst ht
      rw [if_pos rfl, hm]
      simp
    · rw [if_neg ht, if_neg (fun h => ht h.1)]
  | some m =>
    cases hk : m (ResultStore.storeKey path nm) with
    | none =>
      left
      refine ⟨by simp [hk], by simp [val, hm, hk], fun t' k => ?_⟩
      unfold val
      simp only [hk]
      by_cases ht : t' = t
      · subst ht
        rw [if_pos rfl, hm]
        simp
      · rw [if_neg ht, if_neg (fun h => ht h.1)]
    | some u =>
      right
      refine ⟨by simp [hk], fun t' k => ?_⟩
      unfold val
      simp only [hk]
      by_cases ht : t' = t
      · subst ht
        rw [if_pos rfl, hm]
      · rw [if_neg ht]

/-- The state in the loop over the templates: nothing changed but the results of the fits `done`. -/
def Fitted (n : TfEnv τ R P C F M) (op : Oper) (path : String) (c : Cat τ L) (s : ResultStore (Val R P C M)) (done : List (τ × TplSolve.EType))
    (w : World τ L R P C M) : Prop := w.cat = c ∧ w.store.global = s.global ∧ Grew n op path s.perTemplate w.store.perTemplate done

/-- Some of the fits of `all` done. -/
def Partly (n : TfEnv τ R P C F M) (op : Oper) (path : String) (c : Cat τ L) (s : ResultStore (Val R P C M)) (all : τ × TplSolve.EType → Prop)
    (w : World τ L R P C M) : Prop := ∃ done, (∀ p ∈ done, all p) ∧ Fitted n op path c s done w

theorem Grew.snoc {n : TfEnv τ R P C F M} {op : Oper} {path : String} {s s1 s2 : String → Option (ResultsMap (Val R P C M))}
    {done : List (τ × TplSolve.EType)} (h : Grew n op path s s1 done) (t : τ) (ty : TplSolve.EType) (r : R) (hr : n.fit op t ty = .ok r)
    (hfree : val s1 (n.nm.name t) (ResultStore.storeKey path (TplSolve.tfScope ty)) = none)
    (h2 : ∀ t' k, val s2 t' k = if t' = n.nm.name t ∧ k = ResultStore.storeKey path (TplSolve.tfScope ty) then some (.fit r) else val s1 t' k) :
    Grew n op path s s2 (done ++ [(t, ty)]) := by
  obtain ⟨g1, g2⟩ := h
  refine ⟨fun tpl key v => ?_, fun p hp => ?_⟩
  · rw [h2]
    by_cases hk : tpl = n.nm.name t ∧ key = ResultStore.storeKey path (TplSolve.tfScope ty)
    · rw [if_pos hk]
      obtain ⟨rfl, rfl⟩ := hk
      constructor
      · intro h
        cases h
        exact Or.inr ⟨(t, ty), by simp, rfl, rfl, r, rfl, hr⟩
      · rintro (h | ⟨p, hp, e1, e2, r', rfl, hr'⟩)
        · have := (g1 _ _ v).2 (Or.inl h)
          rw [hfree] at this
          cases this
        · rw [List.mem_append, List.mem_singleton] at hp
          rcases hp with hp | rfl
          · have := (g1 _ _ (Val.fit r')).2 (Or.inr ⟨p, hp, e1, e2, r', rfl, hr'⟩)
            rw [hfree] at this
            cases this
          · rw [hr] at hr'
            cases hr'
            rfl
    · rw [if_neg hk, g1]
      constructor
      · rintro (h | ⟨p, hp, h⟩)
        · exact Or.inl h
        · exact Or.inr ⟨p, List.mem_append_left _ hp, h⟩
      · rintro (h | ⟨p, hp, h⟩)
        · exact Or.inl h
        · rw [List.mem_append, List.mem_singleton] at hp
          rcases hp with hp | rfl
          · exact Or.inr ⟨p, hp, h⟩
          · exact absurd ⟨h.1, h.2.1⟩ hk
  · rw [List.mem_append, List.mem_singleton] at hp
    rcases hp with hp | rfl
    · exact g2 p hp
    · exact ⟨r, hr⟩

theorem tfSolve_fitted (n : TfEnv τ R P C F M) (op : Oper) (path : String) (c : Cat τ L) (s : ResultStore (Val R P C M)) (t : τ)
    (all : τ × TplSolve.EType → Prop) (types : List TplSolve.EType) (hall : ∀ ty ∈ types, all (t, ty)) :
    ∀ done, (∀ p ∈ done, all p) →
    Tri (Fitted n op path c s done) (tfSolve n op path types (some t)) (fun _ w => Fitted n op path c s (done ++ types.map fun ty => (t, ty)) w)
      (Partly n op path c s all) := by
  induction types with
  | nil =>
    intro done hd
    rw [List.map_nil, List.append_nil]
    exact Tri.look fun w hw => ⟨done, hd, hw⟩
  | cons ty tys ih =>
    intro done hd
    have e : tfSolve (L := L) n op path (ty :: tys) (some t) = next (next (look fun _ => n.fit op t ty) fun r =>
        putTpl path (n.nm.name t) (TplSolve.tfScope ty) (.fit r)) fun _ => tfSolve n op path tys (some t) := rfl
    rw [e]
    have hd' : ∀ p ∈ done ++ [(t, ty)], all p := by
      intro p hp
      rw [List.mem_append, List.mem_singleton] at hp
      rcases hp with hp | rfl
      · exact hd p hp
      · exact hall ty (List.mem_cons_self ..)
    refine Tri.next (Q := fun _ w => Fitted n op path c s (done ++ [(t, ty)]) w) ?_ fun _ => ?_
    · refine Tri.next (Q := fun r w => Fitted n op path c s done w ∧ n.fit op t ty = .ok r) (Tri.lookV fun w hw => ⟨done, hd, hw⟩) fun r => ?_
      rintro w ⟨⟨h1, h2, h3⟩, hr⟩
      obtain ⟨p1, p2, p3⟩ := putTpl_spec path (n.nm.name t) (TplSolve.tfScope ty) (.fit r) w
      rcases p3 with ⟨q1, q2, q3⟩ | ⟨q1, q2⟩
      · have : Fitted n op path c s (done ++ [(t, ty)]) (putTpl path (n.nm.name t) (TplSolve.tfScope ty) (.fit r) w).1 :=
          ⟨p1.trans h1, p2.trans h2, Grew.snoc h3 t ty r hr q2 q3⟩
        exact ⟨⟨_, hd', this⟩, fun _ _ => this⟩
      · refine ⟨⟨done, hd, p1.trans h1, p2.trans h2, fun tpl key v => ?_, h3.2⟩, fun a ha => by rw [q1] at ha; cases ha⟩
        rw [q2]
        exact h3.1 tpl key v
    · have := ih (fun ty' h => hall ty' (List.mem_cons_of_mem _ h)) (done ++ [(t, ty)]) hd'
      rw [List.append_assoc] at this
      exact this

/-- The fits of the templates of a list. -/
def fits (types : List TplSolve.EType) (ts : List τ) : List (τ × TplSolve.EType) := ts.flatMap fun t => types.map fun ty => (t, ty)

theorem tfLoop_fitted (n : TfEnv τ R P C F M) (op : Oper) (path category : String) (c : Cat τ L) (s : ResultStore (Val R P C M))
    (types : List TplSolve.EType) (v : List (Option τ)) (hv : c.lists c.ortho c.log category = some v) :
    ∀ (k j : Nat) (done : List (τ × TplSolve.EType)), j + k = v.length → (∀ p ∈ done, some p.1 ∈ v ∧ p.2 ∈ types) →
    Tri (Fitted n op path c s done) (tfLoop n op path category types j k)
      (fun _ w => ∃ ts, v.drop j = ts.map some ∧ Fitted n op path c s (done ++ fits types ts) w)
      (Partly n op path c s fun p => some p.1 ∈ v ∧ p.2 ∈ types) := by
  intro k
  induction k with
  | zero =>
    intro j done hj hd w hw
    refine ⟨⟨done, hd, hw⟩, fun _ _ => ⟨[], ?_, ?_⟩⟩
    · rw [List.drop_eq_nil_of_le (by omega)]; rfl
    · unfold fits; rw [List.flatMap_nil, List.append_nil]; exact hw
  | succ k ih =>
    intro j done hj hd
    have hjl : j < v.length := by omega
    have e : tfLoop (L := L) n op path category types j (k + 1) = next (look fun w => getTemplate w.cat category j w.cat.ortho w.cat.log) fun t =>
      next (tfSolve n op path types t) fun _ => tfLoop n op path category types (j + 1) k := rfl
    rw [e]
    refine Tri.next (Q := fun t w => Fitted n op path c s done w ∧ v[j]? = some t) ?_ fun t => ?_
    · intro w hw
      refine ⟨⟨done, hd, hw⟩, fun t ht => ⟨hw, ?_⟩⟩
      unfold look getTemplate at ht
      simp only at ht
      rw [hw.1, hv] at ht
      simp only [Int.natCast_nonneg, if_true, Int.toNat_natCast] at ht
      rw [List.getElem?_eq_getElem hjl] at ht ⊢
      exact congrArg some (Res.ok.inj ht)
    · cases t with
      | none => exact fun w hw => ⟨⟨done, hd, hw.1⟩, fun a ha => nomatch ha⟩
      | some t =>
        have hmem : ∀ w, Fitted n op path c s done w ∧ v[j]? = some (some t) → some t ∈ v := fun w h => List.mem_of_getElem? h.2
        by_cases htv : v[j]? = some (some t)
        swap
        · exact fun w hw => absurd hw.2 htv
        have hin : some t ∈ v := List.mem_of_getElem? htv
        have hd2 : ∀ p ∈ done ++ types.map fun ty => (t, ty), some p.1 ∈ v ∧ p.2 ∈ types := by
          intro p hp
          rw [List.mem_append, List.mem_map] at hp
          rcases hp with hp | ⟨ty, h1, rfl⟩
          · exact hd p hp
          · exact ⟨hin, h1⟩
        refine Tri.mono (I := Fitted n op path c s done) (Tri.next (tfSolve_fitted n op path c s t _ types (fun ty h => ⟨hin, h⟩) done hd) fun _ =>
          ih (j + 1) _ (by omega) hd2) (fun w h => h.1) (fun _ h => h) ?_
        rintro a w ⟨ts, h1, h2⟩
        refine ⟨t :: ts, ?_, ?_⟩
        · rw [List.drop_eq_getElem_cons hjl, h1]
          rw [List.getElem?_eq_getElem hjl] at htv
          rw [Option.some.inj htv]
          rfl
        · rw [List.append_assoc] at h2
          exact h2

/-- The model of a candidate is computed from the linear template of the best name at that candidate, whatever the sampling of the fit. -/
def ModelOf (n : TfEnv τ R P C F M) (op : Oper) (category scope : String) (c : Cat τ L) (s : ResultStore (Val R P C M)) (x : C) (y : C × M) : Prop :=
  y.1 = x ∧ ∃ nm f t, n.best scope s x = .ok (nm, f) ∧ getByName n.nm c nm c.ortho false [category] = .ok t ∧ n.model op t x f = .ok y.2

theorem tfCollect (n : TfEnv τ R P C F M) (op : Oper) (category scope : String) (c : Cat τ L) (hc : c.log = false) (s : ResultStore (Val R P C M)) :
    ∀ l : List C, ((collect (tfExtremum n op category scope) l ⟨c, s⟩).1.store = s) ∧
      ∀ ys, (collect (tfExtremum n op category scope) l ⟨c, s⟩).2 = .ok ys → (collect (tfExtremum n op category scope) l ⟨c, s⟩).1 = ⟨c, s⟩ ∧
        List.Forall₂ (ModelOf n op category scope c s) l ys := by
  have hc' : ({ c with log := false } : Cat τ L) = c := by rw [← hc]
  have one : ∀ x : C, ((tfExtremum n op category scope x ⟨c, s⟩).1.store = s) ∧ ∀ y, (tfExtremum n op category scope x ⟨c, s⟩).2 = .ok y →
      (tfExtremum n op category scope x ⟨c, s⟩).1 = ⟨c, s⟩ ∧ ModelOf n op category scope c s x y := by
    intro x
    unfold tfExtremum
    rw [next_eq]
    unfold look
    dsimp only
    cases hb : n.best scope s x with
    | throw e => exact ⟨rfl, fun y hy => nomatch hy⟩
    | ub => exact ⟨rfl, fun y hy => nomatch hy⟩
    | ok b =>
      dsimp only
      rw [next_eq]
      dsimp only
      rw [next_setLog, next_eq]
      dsimp only
      rw [hc']
      cases ht : getByName n.nm c b.1 c.ortho false [category] with
      | throw e => exact ⟨rfl, fun y hy => nomatch hy⟩
      | ub => exact ⟨rfl, fun y hy => nomatch hy⟩
      | ok t =>
        dsimp only
        rw [next_eq]
        dsimp only
        cases hm : n.model op t x b.2 with
        | throw e => exact ⟨rfl, fun y hy => nomatch hy⟩
        | ub => exact ⟨rfl, fun y hy => nomatch hy⟩
        | ok m =>
          dsimp only
          rw [next_setLog]
          refine ⟨rfl, fun y hy => ⟨?_, ?_⟩⟩
          · dsimp only
          · cases hy
            exact ⟨rfl, b.1, b.2, t, hb, ht, hm⟩
  intro l
  induction l with
  | nil => exact ⟨rfl, fun ys hy => by cases hy; exact ⟨rfl, List.Forall₂.nil⟩⟩
  | cons x xs ih =>
    obtain ⟨o1, o2⟩ := one x
    obtain ⟨i1, i2⟩ := ih
    have e : collect (tfExtremum n op category scope) (x :: xs) = next (tfExtremum n op category scope x) fun y =>
      next (collect (tfExtremum n op category scope) xs) fun ys => look (L := L) fun _ => .ok (y :: ys) := rfl
    rw [e, next_eq]
    cases h1 : (tfExtremum n op category scope x ⟨c, s⟩).2 with
    | throw e => exact ⟨o1, fun y hy => nomatch hy⟩
    | ub => exact ⟨o1, fun y hy => nomatch hy⟩
    | ok y =>
      obtain ⟨p1, p2⟩ := o2 y h1
      dsimp only
      rw [p1, next_eq]
      cases h2 : (collect (tfExtremum n op category scope) xs ⟨c, s⟩).2 with
      | throw e => exact ⟨i1, fun y hy => nomatch hy⟩
      | ub => exact ⟨i1, fun y hy => nomatch hy⟩
      | ok ys =>
        obtain ⟨q1, q2⟩ := i2 ys h2
        refine ⟨i1, fun zs hz => ?_⟩
        cases hz
        exact ⟨q1, List.Forall₂.cons p2 q2⟩

/-- The names of the global results of a template solver, in the order in which they are stored. -/
def names : List String := ["pdf", "pdf_params", "candidatesresult", "extrema_results"]

/-- What a complete template fitting run stores: the PDF found from the fits, twice, its candidates and, for each, its model; the first of them is the
value of the run. -/
def Complete (n : TfEnv τ R P C F M) (o : TfOpts) (path category scope : String) (c : Cat τ L) (s' : ResultStore (Val R P C M))
    (vs : List (Val R P C M)) (best : C × M) : Prop :=
  ∃ p cands l, n.pdf scope s' = .ok (p, cands) ∧ List.Forall₂ (ModelOf n (oper o) category scope c
      ⟨putAll path [("pdf", .pdf p), ("pdf_params", .pdf p), ("candidatesresult", .cands cands)] s'.global, s'.perTemplate⟩) cands l ∧
    l[0]? = some best ∧ vs = [.pdf p, .pdf p, .cands cands, .ext l]

theorem tfRest (n : TfEnv τ R P C F M) (o : TfOpts) (path category : String) (scope : String) (c : Cat τ L) (hc : c.log = o.fft)
    (s : ResultStore (Val R P C M)) :
    Runs path names (next (look fun w => n.pdf scope w.store) fun pc =>
      next (put path "pdf" (.pdf pc.1)) fun _ =>
      next (put path "pdf_params" (.pdf pc.1)) fun _ =>
      next (put path "candidatesresult" (.cands pc.2)) fun _ =>
      next (if o.fft then setLog false else look fun _ => .ok ()) fun _ =>
      next (look fun w => n.check scope w.store) fun _ =>
      next (collect (tfExtremum n (oper o) category scope) pc.2) fun l =>
      next (put path "extrema_results" (.ext l)) fun _ =>
      look fun _ => Res.at_ l 0) ⟨c, s⟩ (Complete n o path category scope c s) := by
  unfold names
  refine Runs.step rfl fun pc hpc => ?_
  refine Runs.put (by decide) (Runs.put (by decide) (Runs.put (by decide) ?_))
  dsimp only
  have hlog : ∀ s' : ResultStore (Val R P C M), ((if o.fft then setLog false else look fun _ => .ok ()) ⟨c, s'⟩ : World τ L R P C M × Res Unit) =
      (⟨{ c with log := false }, s'⟩, .ok ()) := by
    intro s'
    by_cases hf : o.fft = true
    · rw [if_pos hf]; rfl
    · rw [if_neg hf]
      have hf' : c.log = false := hc.trans (by simpa using hf)
      unfold look
      rw [show ({ c with log := false } : Cat τ L) = c by rw [← hf']]
  refine Runs.step (by rw [show (look fun w : World τ L R P C M => n.pdf scope w.store) ⟨c, s⟩ = (⟨c, s⟩, n.pdf scope s) from rfl]; rw [hlog]) fun _ _ => ?_
  rw [show (look fun w : World τ L R P C M => n.pdf scope w.store) ⟨c, s⟩ = (⟨c, s⟩, n.pdf scope s) from rfl, hlog]
  refine Runs.step rfl fun _ _ => ?_
  refine Runs.step ?_ fun l hl => ?_
  · exact (tfCollect n (oper o) category scope { c with log := false } rfl _ pc.2).1
  · have hcol := (tfCollect n (oper o) category scope { c with log := false } rfl _ pc.2).2 l hl
    refine Runs.put (by simp) ⟨[], rfl, rfl, by simp, by simp, fun b hb => ⟨rfl, ?_⟩⟩
    exact ⟨pc.1, pc.2, l, hpc, hcol.2, Res.at_eq_ok.1 hb, rfl⟩

/-- **C186, template fitting.** However a template fitting run ends, it adds global results under the four names in order and, before them, fits of
templates of its category read with the sampling of its options, each under the names of its template and component; no result stored before is changed.
When it ends well all four are there, every template of the category has been fitted for every component, and the global results are those found from
these fits, the model of each candidate being computed with the linear template. -/
theorem C186_template_fitting (n : TfEnv τ R P C F M) (o : TfOpts) (path category : String) (c : Cat τ L) (s : ResultStore (Val R P C M)) :
    ∃ (vs : List (Val R P C M)) (done : List (τ × TplSolve.EType)),
      (tfCompute n o path category ⟨c, s⟩).1.store.global = putAll path (names.zip vs) s.global ∧ vs.length ≤ names.length ∧
      (∀ y ∈ names.zip vs, s.global (ResultStore.storeKey path y.1) = none) ∧
      Grew n (oper o) path s.perTemplate (tfCompute n o path category ⟨c, s⟩).1.store.perTemplate done ∧
      (∀ p ∈ done, some p.1 ∈ TplCat.get c c.ortho o.fft category ∧ ∃ cs, TplSolve.tfComponent o.component = .ok cs ∧ p.2 ∈ cs.1.types) ∧
      ∀ b, (tfCompute n o path category ⟨c, s⟩).2 = .ok b → ∃ cs ts, TplSolve.tfComponent o.component = .ok cs ∧
        c.lists c.ortho o.fft category = some (ts.map some) ∧ ts ≠ [] ∧ done = fits cs.1.types ts ∧ vs.length = names.length ∧
        Complete n o path category cs.2 c ⟨s.global, (tfCompute n o path category ⟨c, s⟩).1.store.perTemplate⟩ vs b := by
  have stop : ∀ (w : World τ L R P C M) (r : Res (C × M)), w.store = s → (∀ b, r ≠ .ok b) → tfCompute n o path category ⟨c, s⟩ = (w, r) →
      ∃ (vs : List (Val R P C M)) (done : List (τ × TplSolve.EType)),
      (tfCompute n o path category ⟨c, s⟩).1.store.global = putAll path (names.zip vs) s.global ∧ vs.length ≤ names.length ∧
      (∀ y ∈ names.zip vs, s.global (ResultStore.storeKey path y.1) = none) ∧
      Grew n (oper o) path s.perTemplate (tfCompute n o path category ⟨c, s⟩).1.store.perTemplate done ∧
      (∀ p ∈ done, some p.1 ∈ TplCat.get c c.ortho o.fft category ∧ ∃ cs, TplSolve.tfComponent o.component = .ok cs ∧ p.2 ∈ cs.1.types) ∧
      ∀ b, (tfCompute n o path category ⟨c, s⟩).2 = .ok b → ∃ cs ts, TplSolve.tfComponent o.component = .ok cs ∧
        c.lists c.ortho o.fft category = some (ts.map some) ∧ ts ≠ [] ∧ done = fits cs.1.types ts ∧ vs.length = names.length ∧
        Complete n o path category cs.2 c ⟨s.global, (tfCompute n o path category ⟨c, s⟩).1.store.perTemplate⟩ vs b := by
    intro w r hw hr e
    rw [e]
    refine ⟨[], [], by simp [putAll, hw], by simp, by simp, ?_, by simp, fun b hb => absurd hb (hr b)⟩
    simp only [hw]
    exact ⟨fun tpl key v => by simp, by simp⟩
  by_cases hop : (o.fft && o.phot) = true
  · refine stop ⟨c, s⟩ (.throw .FFT_WITH_PHOTOMETRY_NOTIMPLEMENTED) rfl (fun b h => nomatch h) ?_
    unfold tfCompute
    rw [if_pos hop]
    rfl
  have e0 : tfCompute n o path category ⟨c, s⟩ = next (look fun _ => TplSolve.tfComponent o.component) (fun cs =>
      next (look fun w => if count w.cat category w.cat.ortho w.cat.log = 0 then .throw .BAD_TEMPLATECATALOG else
        .ok (count w.cat category w.cat.ortho w.cat.log)) fun k =>
      next (tfLoop n (oper o) path category cs.1.types 0 k) fun _ =>
      next (look fun w => n.pdf cs.2 w.store) fun pc =>
      next (put path "pdf" (.pdf pc.1)) fun _ =>
      next (put path "pdf_params" (.pdf pc.1)) fun _ =>
      next (put path "candidatesresult" (.cands pc.2)) fun _ =>
      next (if o.fft then setLog false else look fun _ => .ok ()) fun _ =>
      next (look fun w => n.check cs.2 w.store) fun _ =>
      next (collect (tfExtremum n (oper o) category cs.2) pc.2) fun l =>
      next (put path "extrema_results" (.ext l)) fun _ =>
      look fun _ => Res.at_ l 0) ⟨{ c with log := o.fft }, s⟩ := by
    unfold tfCompute
    rw [if_neg hop]
    rfl
  cases hcs : TplSolve.tfComponent o.component with
  | throw e => exact hcs ▸ stop ⟨{ c with log := o.fft }, s⟩ (.throw e) rfl (fun b h => nomatch h) (by rw [e0, next_eq]; unfold look; dsimp only; rw [hcs])
  | ub => exact hcs ▸ stop ⟨{ c with log := o.fft }, s⟩ .ub rfl (fun b h => nomatch h) (by rw [e0, next_eq]; unfold look; dsimp only; rw [hcs])
  | ok cs =>
    rw [hcs, next_look] at e0
    by_cases hk : count c category c.ortho o.fft = 0
    · refine hcs ▸ stop ⟨{ c with log := o.fft }, s⟩ (.throw .BAD_TEMPLATECATALOG) rfl (fun b h => nomatch h) ?_
      rw [e0, next_eq]
      unfold look
      dsimp only
      rw [if_pos (show count ({ c with log := o.fft } : Cat τ L) category c.ortho o.fft = 0 from hk)]
    have hk' : ¬ count ({ c with log := o.fft } : Cat τ L) category c.ortho o.fft = 0 := hk
    obtain ⟨v, hv, hvl⟩ : ∃ v, c.lists c.ortho o.fft category = some v ∧ count c category c.ortho o.fft = v.length := by
      unfold count at hk ⊢
      cases hv : c.lists c.ortho o.fft category with
      | none => rw [hv] at hk; exact absurd rfl hk
      | some v => exact ⟨v, rfl, rfl⟩
    have hget : TplCat.get c c.ortho o.fft category = v := by unfold TplCat.get; rw [hv]; rfl
    have e1 : tfCompute n o path category ⟨c, s⟩ = next (tfLoop n (oper o) path category cs.1.types 0 v.length) (fun _ =>
      next (look fun w => n.pdf cs.2 w.store) fun pc =>
      next (put path "pdf" (.pdf pc.1)) fun _ =>
      next (put path "pdf_params" (.pdf pc.1)) fun _ =>
      next (put path "candidatesresult" (.cands pc.2)) fun _ =>
      next (if o.fft then setLog false else look fun _ => .ok ()) fun _ =>
      next (look fun w => n.check cs.2 w.store) fun _ =>
      next (collect (tfExtremum n (oper o) category cs.2) pc.2) fun l =>
      next (put path "extrema_results" (.ext l)) fun _ =>
      look fun _ => Res.at_ l 0) ⟨{ c with log := o.fft }, s⟩ := by
      rw [e0, next_eq]
      unfold look
      dsimp only
      rw [if_neg hk', show count ({ c with log := o.fft } : Cat τ L) category c.ortho o.fft = v.length from hvl]
    have hv' : ({ c with log := o.fft } : Cat τ L).lists c.ortho o.fft category = some v := hv
    obtain ⟨t1, t2⟩ := tfLoop_fitted n (oper o) path category { c with log := o.fft } s cs.1.types v hv' v.length 0 [] (by omega) (by simp)
      ⟨{ c with log := o.fft }, s⟩ ⟨rfl, rfl, fun tpl key v => by simp, by simp⟩
    rw [next_eq] at e1
    cases hl : (tfLoop n (oper o) path category cs.1.types 0 v.length ⟨{ c with log := o.fft }, s⟩).2 with
    | throw e =>
      rw [hl] at e1
      obtain ⟨done, d1, d2, d3, d4⟩ := t1
      rw [e1]
      exact ⟨[], done, by simpa [putAll] using d3, by simp, by simp, d4, fun p hp => ⟨hget ▸ (d1 p hp).1, cs, rfl, (d1 p hp).2⟩, fun b hb => nomatch hb⟩
    | ub =>
      rw [hl] at e1
      obtain ⟨done, d1, d2, d3, d4⟩ := t1
      rw [e1]
      exact ⟨[], done, by simpa [putAll] using d3, by simp, by simp, d4, fun p hp => ⟨hget ▸ (d1 p hp).1, cs, rfl, (d1 p hp).2⟩, fun b hb => nomatch hb⟩
    | ok u =>
      rw [hl] at e1
      obtain ⟨ts, hts, f1, f2, f3⟩ := t2 u hl
      rw [List.drop_zero] at hts
      rw [List.nil_append] at f3
      generalize hw1 : (tfLoop n (oper o) path category cs.1.types 0 v.length ⟨{ c with log := o.fft }, s⟩).1 = w1 at *
      obtain ⟨c1, s1⟩ := w1
      dsimp only at f1 f2 f3 e1
      subst f1
      obtain ⟨vs, r1, r2, r3, r4, r5⟩ := tfRest n o path category cs.2 { c with log := o.fft } rfl s1
      rw [← e1] at r1 r2 r5
      refine ⟨vs, fits cs.1.types ts, ?_, r3, ?_, ?_, ?_, ?_⟩
      · rw [r1, f2]
      · intro y hy
        rw [← f2]
        exact r4 y hy
      · rw [r2]; exact f3
      · intro p hp
        unfold fits at hp
        rw [List.mem_flatMap] at hp
        obtain ⟨t, ht, hp⟩ := hp
        rw [List.mem_map] at hp
        obtain ⟨ty, hty, rfl⟩ := hp
        refine ⟨?_, cs, rfl, hty⟩
        rw [hget, hts]
        exact List.mem_map_of_mem ht
      · intro b hb
        obtain ⟨g1, g2⟩ := r5 b hb
        refine ⟨cs, ts, rfl, by rw [hv, hts], ?_, rfl, g1, ?_⟩
        · rintro rfl
          rw [hts] at hvl
          exact hk hvl
        · rw [r2]
          have : (⟨s.global, s1.perTemplate⟩ : ResultStore (Val R P C M)) = s1 := by cases s1; simp only at f2 ⊢; rw [f2]
          dsimp only
          rw [this]
          exact g2

end TplRun
end Amazed
