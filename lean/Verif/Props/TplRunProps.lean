import Verif.Model.TplRun
import Verif.Props.PdfRename

set_option linter.unusedVariables false
set_option linter.unusedSectionVars false

/-! # C185: the lists of templates read by a solver do not depend on what the solvers before it did -/

namespace Amazed
namespace TplRun
open TplCat

variable {τ L R P C F M : Type}

theorem next_eq {A B : Type} (x : Step τ L R P C M A) (f : A → Step τ L R P C M B) (w : World τ L R P C M) :
    next x f w = match (x w).2 with
      | .ok a => f a (x w).1
      | .throw e => ((x w).1, .throw e)
      | .ub => ((x w).1, .ub) := by
  unfold next
  rcases x w with ⟨w', r⟩
  cases r <;> rfl

theorem next_look {A B : Type} (a : A) (f : A → Step τ L R P C M B) (w : World τ L R P C M) : next (look fun _ => .ok a) f w = f a w := rfl

theorem next_setLog {B : Type} (b : Bool) (f : Unit → Step τ L R P C M B) (w : World τ L R P C M) :
    next (setLog b) f w = f () ⟨{ w.cat with log := b }, w.store⟩ := rfl

/-! ## Assertions before and after a step -/

/-- From a state with `I`, the step leaves a state with `E`, and with `Q` when it ends well. -/
def Tri {A : Type} (I : World τ L R P C M → Prop) (x : Step τ L R P C M A) (Q : A → World τ L R P C M → Prop) (E : World τ L R P C M → Prop) : Prop :=
  ∀ w, I w → E (x w).1 ∧ ∀ a, (x w).2 = .ok a → Q a (x w).1

theorem Tri.next {A B : Type} {I E : World τ L R P C M → Prop} {x : Step τ L R P C M A} {f : A → Step τ L R P C M B}
    {Q : A → World τ L R P C M → Prop} {Q' : B → World τ L R P C M → Prop} (h1 : Tri I x Q E) (h2 : ∀ a, Tri (Q a) (f a) Q' E) :
    Tri I (TplRun.next x f) Q' E := by
  intro w hw
  obtain ⟨g1, g2⟩ := h1 w hw
  rw [next_eq]
  cases h : (x w).2 with
  | ok a => exact h2 a _ (g2 a h)
  | throw e => exact ⟨g1, fun a ha => nomatch ha⟩
  | ub => exact ⟨g1, fun a ha => nomatch ha⟩

theorem Tri.look {A : Type} {I E : World τ L R P C M → Prop} {f : World τ L R P C M → Res A} (h : ∀ w, I w → E w) :
    Tri I (look f) (fun _ w => I w) E := fun w hw => ⟨h w hw, fun _ _ => hw⟩

/-- As `Tri.look`, keeping the value found. -/
theorem Tri.lookV {A : Type} {I E : World τ L R P C M → Prop} {f : World τ L R P C M → Res A} (h : ∀ w, I w → E w) :
    Tri I (TplRun.look f) (fun a w => I w ∧ f w = .ok a) E := fun w hw => ⟨h w hw, fun _ ha => ⟨hw, ha⟩⟩

theorem Tri.setLog {I E : World τ L R P C M → Prop} {Q : World τ L R P C M → Prop} {b : Bool}
    (h : ∀ w, I w → Q ⟨{ w.cat with log := b }, w.store⟩) (hE : ∀ w, Q w → E w) : Tri I (setLog b) (fun _ w => Q w) E :=
  fun w hw => ⟨hE _ (h w hw), fun _ _ => h w hw⟩

theorem Tri.mono {A : Type} {I I' E E' : World τ L R P C M → Prop} {x : Step τ L R P C M A} {Q Q' : A → World τ L R P C M → Prop} (h : Tri I x Q E)
    (hI : ∀ w, I' w → I w) (hE : ∀ w, E w → E' w) (hQ : ∀ a w, Q a w → Q' a w) : Tri I' x Q' E' :=
  fun w hw => ⟨hE _ (h w (hI w hw)).1, fun a ha => hQ a _ ((h w (hI w hw)).2 a ha)⟩

theorem Tri.put {I E : World τ L R P C M → Prop} {Q : World τ L R P C M → Prop} {path name : String} {v : Val R P C M} (hE : ∀ w, I w → E w)
    (hQ : ∀ w, Q w → E w) (h : ∀ w, I w → w.store.global (ResultStore.storeKey path name) = none →
      Q ⟨w.cat, { w.store with global := fun k => if k = ResultStore.storeKey path name then some v else w.store.global k }⟩) :
    Tri I (put path name v) (fun _ w => Q w) E := by
  intro w hw
  unfold TplRun.put ResultStore.storeGlobal ResultStore.storeResult
  cases hk : w.store.global (ResultStore.storeKey path name) with
  | some u => exact ⟨hE w hw, fun a ha => nomatch ha⟩
  | none => exact ⟨hQ _ (h w hw hk), fun _ _ => h w hw hk⟩

theorem Tri.seq {A : Type} {I E : World τ L R P C M → Prop} {f : A → Step τ L R P C M Unit} (hE : ∀ w, I w → E w) :
    ∀ l : List A, (∀ a ∈ l, Tri I (f a) (fun _ w => I w) E) → Tri I (seq f l) (fun _ w => I w) E := by
  intro l
  induction l with
  | nil => intro _; exact Tri.look hE
  | cons a as ih =>
    intro h
    exact Tri.next (h a (List.mem_cons_self ..)) fun _ => ih fun b hb => h b (List.mem_cons_of_mem _ hb)

theorem Tri.collect {A B : Type} {I E : World τ L R P C M → Prop} {f : A → Step τ L R P C M B} (hE : ∀ w, I w → E w)
    (h : ∀ a, Tri I (f a) (fun _ w => I w) E) : ∀ l : List A, Tri I (collect f l) (fun _ w => I w) E := by
  intro l
  induction l with
  | nil => exact Tri.look hE
  | cons a as ih => exact Tri.next (h a) fun _ => Tri.next ih fun _ => Tri.look hE

/-! ## What a run leaves in the catalogue -/

/-- An assertion on the flags and the global results only. -/
def Glob (J : Bool → ResultsMap (Val R P C M) → Prop) (w : World τ L R P C M) : Prop := J w.cat.log w.store.global

theorem tfSolve_tri (n : TfEnv τ R P C F M) (op : Oper) (path : String) (types : List TplSolve.EType) (t : Option τ)
    (J : Bool → ResultsMap (Val R P C M) → Prop) (E : World τ L R P C M → Prop) (hE : ∀ w, Glob J w → E w) :
    Tri (Glob J) (tfSolve n op path types t) (fun _ w => Glob J w) E := by
  cases t with
  | none => exact Tri.look hE
  | some t =>
    refine Tri.seq hE _ fun ty _ => Tri.next (Tri.look hE) fun r => ?_
    intro w hw
    have : Glob J (putTpl path (n.nm.name t) (TplSolve.tfScope ty) (.fit r) w).1 := hw
    exact ⟨hE _ this, fun _ _ => this⟩

theorem tfLoop_tri (n : TfEnv τ R P C F M) (op : Oper) (path category : String) (types : List TplSolve.EType)
    (J : Bool → ResultsMap (Val R P C M) → Prop) (E : World τ L R P C M → Prop) (hE : ∀ w, Glob J w → E w) :
    ∀ k j : Nat, Tri (Glob J) (tfLoop n op path category types j k) (fun _ w => Glob J w) E := by
  intro k
  induction k with
  | zero => intro j; exact Tri.look hE
  | succ k ih =>
    intro j
    exact Tri.next (Tri.look hE) fun t => Tri.next (tfSolve_tri n op path types t J E hE) fun _ => ih (j + 1)

/-- The flags and the global results when the candidates of a template fitting run are not stored yet, and after. -/
def Before (b : Bool) (key : String) (l : Bool) (g : ResultsMap (Val R P C M)) : Prop := l = b ∧ g key = none

def After (key : String) (l : Bool) (g : ResultsMap (Val R P C M)) : Prop := l = false ∧ g key ≠ none

def Either (b : Bool) (key : String) (w : World τ L R P C M) : Prop := Glob (Before b key) w ∨ w.store.global key ≠ none ∧ (w.cat.log = false)

theorem storeKey_inj {path a b : String} (h : ResultStore.storeKey path a = ResultStore.storeKey path b) : a = b := (PdfOp.prefix_inj _ _ _).1 h

theorem tfExtremum_tri (n : TfEnv τ R P C F M) (op : Oper) (category scope : String) (c : C) (key : String) (b : Bool) :
    Tri (Glob (L := L) (τ := τ) (After key)) (tfExtremum n op category scope c) (fun _ w => Glob (After key) w) (Either b key) := by
  have hE : ∀ w : World τ L R P C M, Glob (After key) w → Either b key w := fun w h => Or.inr ⟨h.2, h.1⟩
  have hE' : ∀ (cur : Bool) (w : World τ L R P C M), Glob (After key) w ∧ Res.ok w.cat.log = .ok cur → Either b key w := fun _ w h => hE w h.1
  unfold tfExtremum
  refine Tri.next (Tri.look hE) fun x => Tri.next (Tri.lookV hE) fun cur => ?_
  by_cases hc : cur = false
  · subst hc
    exact Tri.next (Tri.setLog (Q := Glob (After key)) (fun w h => ⟨rfl, h.1.2⟩) hE) fun _ => Tri.next (Tri.look hE) fun t =>
      Tri.next (Tri.look hE) fun m => Tri.next (Tri.setLog (Q := Glob (After key)) (fun w h => ⟨rfl, h.2⟩) hE) fun _ => Tri.look hE
  · intro w hw
    exfalso
    have h1 : w.cat.log = false := hw.1.1
    have h2 := Res.ok.inj hw.2
    exact hc (h2.symm.trans h1)

/-- **C185, flag.** The flag after a template fitting run that gets past the test of the options: the run leaves the catalogue in log sampling exactly when it is an FFT
run that did not store its candidates. -/
theorem C185_flag (n : TfEnv τ R P C F M) (o : TfOpts) (path category : String) (w : World τ L R P C M)
    (hop : (o.fft && o.phot) = false) (hfree : w.store.global (ResultStore.storeKey path "candidatesresult") = none) :
    let w' := (tfCompute n o path category w).1
    (w'.cat.log = (o.fft && (w'.store.global (ResultStore.storeKey path "candidatesresult")).isNone)) ∧
    ∀ x, (tfCompute n o path category w).2 = .ok x → w'.store.global (ResultStore.storeKey path "candidatesresult") ≠ none := by
  have hne : ∀ nm, nm ≠ "candidatesresult" → ResultStore.storeKey path "candidatesresult" ≠ ResultStore.storeKey path nm :=
    fun nm h e => h (storeKey_inj e).symm
  have main : Tri (fun w : World τ L R P C M => w.store.global (ResultStore.storeKey path "candidatesresult") = none) (tfCompute n o path category)
      (fun _ w => Glob (After (ResultStore.storeKey path "candidatesresult")) w)
      (fun w => (w.cat.log = (o.fft && (w.store.global (ResultStore.storeKey path "candidatesresult")).isNone))) := by
    generalize hk : ResultStore.storeKey path "candidatesresult" = key at hne
    have hE : ∀ w : World τ L R P C M, Either o.fft key w → (w.cat.log = (o.fft && (w.store.global key).isNone)) := by
      rintro w (⟨h1, h2⟩ | ⟨h1, h2⟩)
      · rw [h1, h2]; simp
      · rw [h2]
        cases hg : w.store.global key with
        | none => exact absurd hg h1
        | some v => simp
    have hB : ∀ w : World τ L R P C M, Glob (Before o.fft key) w → Either o.fft key w := fun w h => Or.inl h
    have hA : ∀ w : World τ L R P C M, Glob (After key) w → Either o.fft key w := fun w h => Or.inr ⟨h.2, h.1⟩
    unfold tfCompute
    have key2 : Tri (fun w : World τ L R P C M => w.store.global key = none)
        (TplRun.next (setLog o.fft) fun _ =>
          TplRun.next (TplRun.look fun _ => TplSolve.tfComponent o.component) fun cs =>
          TplRun.next (TplRun.look fun w => if count w.cat category w.cat.ortho w.cat.log = 0 then .throw .BAD_TEMPLATECATALOG else
            .ok (count w.cat category w.cat.ortho w.cat.log)) fun k =>
          TplRun.next (tfLoop n (oper o) path category cs.1.types 0 k) fun _ =>
          TplRun.next (TplRun.look fun w => n.pdf cs.2 w.store) fun pc =>
          TplRun.next (TplRun.put path "pdf" (.pdf pc.1)) fun _ =>
          TplRun.next (TplRun.put path "pdf_params" (.pdf pc.1)) fun _ =>
          TplRun.next (TplRun.put path "candidatesresult" (.cands pc.2)) fun _ =>
          TplRun.next (if o.fft then setLog false else TplRun.look fun _ => .ok ()) fun _ =>
          TplRun.next (TplRun.look fun w => n.check cs.2 w.store) fun _ =>
          TplRun.next (TplRun.collect (tfExtremum n (oper o) category cs.2) pc.2) fun l =>
          TplRun.next (TplRun.put path "extrema_results" (.ext l)) fun _ =>
          TplRun.look fun _ => Res.at_ l 0) (fun _ w => Glob (After key) w) (fun w => (w.cat.log = (o.fft && (w.store.global key).isNone))) := by
      have put1 : ∀ nm v, nm ≠ "candidatesresult" → Tri (Glob (Before o.fft key)) (TplRun.put path nm v)
          (fun _ w => Glob (L := L) (τ := τ) (Before o.fft key) w) (Either o.fft key) := fun nm v h =>
        Tri.put hB hB fun w hw _ => ⟨hw.1, by simp only [if_neg (hne nm h)]; exact hw.2⟩
      refine Tri.next (Tri.setLog (Q := Glob (Before o.fft key)) (fun w h => ⟨rfl, h⟩) (fun w h => hE w (hB w h))) fun _ => ?_
      refine Tri.mono (E := Either o.fft key) ?_ (fun w h => h) hE (fun _ _ h => h)
      refine Tri.next (Tri.look hB) fun cs => Tri.next (Tri.look hB) fun k => Tri.next (tfLoop_tri n _ path category _ _ _ hB k 0) fun _ =>
        Tri.next (Tri.look hB) fun pc => Tri.next (put1 _ _ (by decide)) fun _ => Tri.next (put1 _ _ (by decide)) fun _ => ?_
      -- the candidates and the flag together: no other step comes between them
      intro w hw
      rw [next_eq]
      have hst : TplRun.put path "candidatesresult" (.cands pc.2) w =
          (⟨w.cat, { w.store with global := fun k => if k = key then some (.cands pc.2) else w.store.global k }⟩, .ok ()) := by
        unfold TplRun.put ResultStore.storeGlobal ResultStore.storeResult
        rw [hk, hw.2]
      rw [hst]
      dsimp only
      have rest : Tri (fun w : World τ L R P C M => (w.cat.log = o.fft) ∧ w.store.global key ≠ none)
          (TplRun.next (if o.fft then setLog false else TplRun.look fun _ => .ok ()) fun _ =>
          TplRun.next (TplRun.look fun w => n.check cs.2 w.store) fun _ =>
          TplRun.next (TplRun.collect (tfExtremum n (oper o) category cs.2) pc.2) fun l =>
          TplRun.next (TplRun.put path "extrema_results" (.ext l)) fun _ =>
          TplRun.look fun _ => Res.at_ l 0) (fun _ w => Glob (After key) w) (Either o.fft key) := by
        have tail : Tri (Glob (After key)) (
            TplRun.next (TplRun.look fun w => n.check cs.2 w.store) fun _ =>
            TplRun.next (TplRun.collect (tfExtremum n (oper o) category cs.2) pc.2) fun l =>
            TplRun.next (TplRun.put path "extrema_results" (.ext l)) fun _ =>
            TplRun.look fun _ => Res.at_ l 0) (fun _ w => Glob (L := L) (τ := τ) (After key) w) (Either o.fft key) :=
          Tri.next (Tri.look hA) fun _ => Tri.next (Tri.collect hA (fun c => tfExtremum_tri n _ category cs.2 c key o.fft) pc.2) fun l =>
            Tri.next (Tri.put hA hA fun w hw _ => ⟨hw.1, by simp only [if_neg (hne "extrema_results" (by decide))]; exact hw.2⟩) fun _ => Tri.look hA
        by_cases hf : o.fft = true
        · rw [if_pos hf]
          exact Tri.next (Tri.setLog (Q := Glob (After key)) (fun w h => ⟨rfl, h.2⟩) hA) fun _ => tail
        · rw [if_neg hf]
          have hf' : o.fft = false := by simpa using hf
          refine Tri.next (Tri.look (I := fun w => (w.cat.log = o.fft) ∧ w.store.global key ≠ none) fun w h => hA w ⟨h.1.trans hf', h.2⟩) fun _ => ?_
          exact Tri.mono tail (fun w h => ⟨h.1.trans hf', h.2⟩) (fun w h => h) (fun _ _ h => h)
      exact rest _ ⟨hw.1, by simp⟩
    intro w hw
    rw [next_eq]
    unfold TplRun.look
    dsimp only
    rw [if_neg (by rw [hop]; simp)]
    exact key2 w hw
  obtain ⟨h1, h2⟩ := main w hfree
  exact ⟨h1, fun x hx => (h2 x hx).2⟩

/-- A template fitting run that ends well leaves the catalogue in linear sampling. -/
theorem tfCompute_ok_log (n : TfEnv τ R P C F M) (o : TfOpts) (path category : String) (w : World τ L R P C M) (x : C × M)
    (hx : (tfCompute n o path category w).2 = .ok x) : (tfCompute n o path category w).1.cat.log = false := by
  have hT : ∀ w : World τ L R P C M, (fun w : World τ L R P C M => w.cat.log = false) w → True := fun _ _ => trivial
  have ex : ∀ scope c, Tri (fun w : World τ L R P C M => w.cat.log = false) (tfExtremum n (oper o) category scope c) (fun _ w => w.cat.log = false)
      (fun _ => True) := by
    intro scope c
    unfold tfExtremum
    refine Tri.next (Tri.look hT) fun x => Tri.next (Tri.lookV hT) fun cur => ?_
    by_cases hc : cur = false
    · subst hc
      exact Tri.next (Tri.setLog (Q := fun w => w.cat.log = false) (fun w h => rfl) hT) fun _ => Tri.next (Tri.look hT) fun t =>
        Tri.next (Tri.look hT) fun m => Tri.next (Tri.setLog (Q := fun w => w.cat.log = false) (fun w h => rfl) hT) fun _ => Tri.look hT
    · intro w hw
      exact absurd ((Res.ok.inj hw.2).symm.trans hw.1) hc
  have l0 : ∀ {A : Type} (f : World τ L R P C M → Res A), Tri (fun w : World τ L R P C M => w.cat.log = o.fft) (look f) (fun _ w => w.cat.log = o.fft)
      (fun _ => True) := fun f => Tri.look fun _ _ => trivial
  have p0 : ∀ nm v, Tri (fun w : World τ L R P C M => w.cat.log = o.fft) (put path nm v) (fun _ w => w.cat.log = o.fft) (fun _ => True) :=
    fun nm v => Tri.put (fun _ _ => trivial) (fun _ _ => trivial) fun w h _ => h
  have hf : Tri (fun w : World τ L R P C M => w.cat.log = o.fft) (if o.fft then setLog false else look fun _ => .ok ()) (fun _ w => w.cat.log = false)
      (fun _ => True) := by
    by_cases hf : o.fft = true
    · rw [if_pos hf]; exact Tri.setLog (Q := fun w => w.cat.log = false) (fun _ _ => rfl) hT
    · rw [if_neg hf]
      have hf' : o.fft = false := by simpa using hf
      exact Tri.mono (l0 _) (fun _ h => h) (fun _ h => h) (fun _ w h => h.trans hf')
  have main : Tri (fun w : World τ L R P C M => True) (tfCompute n o path category) (fun _ w => w.cat.log = false) (fun _ => True) := by
    unfold tfCompute
    exact Tri.next (Tri.look fun _ h => h) fun _ => Tri.next (Tri.setLog (Q := fun w => w.cat.log = o.fft) (fun _ _ => rfl) fun _ _ => trivial) fun _ =>
      Tri.next (l0 _) fun cs => Tri.next (l0 _) fun k =>
      Tri.next (tfLoop_tri n (oper o) path category cs.1.types (fun l _ => l = o.fft) (fun _ => True) (fun _ _ => trivial) k 0) fun _ =>
      Tri.next (l0 _) fun pc => Tri.next (p0 _ _) fun _ => Tri.next (p0 _ _) fun _ => Tri.next (p0 _ _) fun _ => Tri.next hf fun _ =>
      Tri.next (Tri.look hT) fun _ => Tri.next (Tri.collect hT (fun c => ex cs.2 c) pc.2) fun l =>
      Tri.next (Tri.put hT hT fun w h _ => h) fun _ => Tri.look hT
  exact (main w trivial).2 x hx

/-- A template fitting run without FFT keeps the catalogue in linear sampling, however it ends. -/
theorem tfCompute_plain_log (n : TfEnv τ R P C F M) (o : TfOpts) (path category : String) (w : World τ L R P C M) (hf : o.fft = false)
    (h : w.cat.log = false) :
    (tfCompute n o path category w).1.cat.log = false := by
  have hT : ∀ w : World τ L R P C M, w.cat.log = false → w.cat.log = false := fun _ h => h
  have ex : ∀ scope c, Tri (fun w : World τ L R P C M => w.cat.log = false) (tfExtremum n (oper o) category scope c) (fun _ w => w.cat.log = false)
      (fun w => w.cat.log = false) := by
    intro scope c
    unfold tfExtremum
    refine Tri.next (Tri.look hT) fun x => Tri.next (Tri.lookV hT) fun cur => ?_
    by_cases hc : cur = false
    · subst hc
      exact Tri.next (Tri.setLog (Q := fun w => w.cat.log = false) (fun w h => rfl) hT) fun _ => Tri.next (Tri.look hT) fun t =>
        Tri.next (Tri.look hT) fun m => Tri.next (Tri.setLog (Q := fun w => w.cat.log = false) (fun w h => rfl) hT) fun _ => Tri.look hT
    · intro w hw
      exact absurd ((Res.ok.inj hw.2).symm.trans hw.1) hc
  have l0 : ∀ {A : Type} (f : World τ L R P C M → Res A), Tri (fun w : World τ L R P C M => w.cat.log = false) (look f) (fun _ w => w.cat.log = false)
      (fun w => w.cat.log = false) := fun f => Tri.look hT
  have p0 : ∀ nm v, Tri (fun w : World τ L R P C M => w.cat.log = false) (put path nm v) (fun _ w => w.cat.log = false) (fun w => w.cat.log = false) :=
    fun nm v => Tri.put hT hT fun w h _ => h
  have h1 : Tri (fun w : World τ L R P C M => w.cat.log = false) (if o.fft then setLog false else look fun _ => .ok ()) (fun _ w => w.cat.log = false)
      (fun w => w.cat.log = false) := by
    rw [if_neg (by rw [hf]; simp)]; exact l0 _
  have main : Tri (fun w : World τ L R P C M => w.cat.log = false) (tfCompute n o path category) (fun _ w => w.cat.log = false)
      (fun w => w.cat.log = false) := by
    unfold tfCompute
    exact Tri.next (l0 _) fun _ => Tri.next (Tri.setLog (Q := fun w => w.cat.log = false) (fun _ _ => hf) hT) fun _ => Tri.next (l0 _) fun cs =>
      Tri.next (l0 _) fun k =>
      Tri.next (tfLoop_tri n (oper o) path category cs.1.types (fun l _ => l = false) (fun w => w.cat.log = false) (fun _ h => h) k 0) fun _ =>
      Tri.next (l0 _) fun pc => Tri.next (p0 _ _) fun _ => Tri.next (p0 _ _) fun _ => Tri.next (p0 _ _) fun _ => Tri.next h1 fun _ =>
      Tri.next (Tri.look hT) fun _ => Tri.next (Tri.collect hT (fun c => ex cs.2 c) pc.2) fun l =>
      Tri.next (p0 _ _) fun _ => Tri.look hT
  exact (main w h).1

/-- Everything of the catalogue except the log flag. -/
def Same (c c' : Cat τ L) : Prop := c.lists = c'.lists ∧ c.ortho = c'.ortho ∧ c.lsf = c'.lsf

theorem same_flag {c c' : Cat τ L} (h : Same c c') (b : Bool) : ({ c with log := b } : Cat τ L) = { c' with log := b } := by
  obtain ⟨h1, h2, h3⟩ := h
  cases c; cases c'
  simp_all

/-- **C185, template fitting.** For every catalogue, the end of a template fitting run, its value, and all it stores do not depend on the sampling flag
left by the solvers before it, nor does the flag it leaves itself when its options are accepted. -/
theorem C185_template_fitting (n : TfEnv τ R P C F M) (o : TfOpts) (path category : String) (c c' : Cat τ L) (h : Same c c')
    (s : ResultStore (Val R P C M)) :
    (tfCompute n o path category ⟨c, s⟩).2 = (tfCompute n o path category ⟨c', s⟩).2 ∧
    (tfCompute n o path category ⟨c, s⟩).1.store = (tfCompute n o path category ⟨c', s⟩).1.store ∧
    ((o.fft && o.phot) = false → tfCompute n o path category ⟨c, s⟩ = tfCompute n o path category ⟨c', s⟩) := by
  by_cases hop : (o.fft && o.phot) = true
  · have e : ∀ w : World τ L R P C M, tfCompute n o path category w = (w, .throw .FFT_WITH_PHOTOMETRY_NOTIMPLEMENTED) := by
      intro w
      unfold tfCompute
      rw [next_eq]
      unfold look
      dsimp only
      rw [if_pos hop]
    rw [e, e]
    exact ⟨rfl, rfl, fun h => by rw [hop] at h; cases h⟩
  · have e : tfCompute n o path category ⟨c, s⟩ = tfCompute n o path category ⟨c', s⟩ := by
      unfold tfCompute
      rw [if_neg hop, next_look, next_look, next_setLog, next_setLog]
      exact congrArg _ (congrArg (fun x => World.mk x s) (same_flag h o.fft))
    exact ⟨by rw [e], by rw [e], fun _ => e⟩

/-! ## The catalogue after each solver -/

theorem tcLoop_log (n : TcEnv τ R P C F M) (path : String) (ts : List (Option τ)) (b : Bool) :
    ∀ tys : List TplSolve.EType, Tri (fun w : World τ L R P C M => w.cat.log = b) (tcLoop n path ts tys) (fun _ w => w.cat.log = b) (fun w => w.cat.log = b) := by
  intro tys
  induction tys with
  | nil => exact Tri.look fun _ h => h
  | cons ty tys ih =>
    refine Tri.next (Tri.look fun _ h => h) fun r => ?_
    cases r with
    | none => exact Tri.look fun _ h => h
    | some r => exact Tri.next (Tri.put (fun _ h => h) (fun _ h => h) fun w h _ => h) fun _ => ih

theorem tcExtremum_log (n : TcEnv τ R P C F M) (scope : String) (ts : List (Option τ)) (c : C) :
    Tri (fun w : World τ L R P C M => w.cat.log = false) (tcExtremum n scope ts c) (fun _ w => w.cat.log = false) (fun w => w.cat.log = false) := by
  unfold tcExtremum
  refine Tri.next (Tri.look fun _ h => h) fun x => Tri.next (Tri.lookV fun _ h => h) fun cur => ?_
  by_cases hc : cur = false
  · subst hc
    exact Tri.next (Tri.setLog (Q := fun w => w.cat.log = false) (fun w h => rfl) fun _ h => h) fun _ => Tri.next (Tri.look fun _ h => h) fun m =>
      Tri.next (Tri.setLog (Q := fun w => w.cat.log = false) (fun w h => rfl) fun _ h => h) fun _ => Tri.look fun _ h => h
  · intro w hw
    exact absurd ((Res.ok.inj hw.2).symm.trans hw.1) hc

/-- A template combination run never leaves the catalogue in log sampling when it finds it in linear sampling. -/
theorem tcCompute_log (n : TcEnv τ R P C F M) (o : TcOpts) (path category : String) (w : World τ L R P C M) (h : w.cat.log = false) :
    (tcCompute n o path category w).1.cat.log = false := by
  have p1 : ∀ nm v, Tri (fun w : World τ L R P C M => w.cat.log = false) (put path nm v) (fun _ w => w.cat.log = false) (fun w => w.cat.log = false) :=
    fun nm v => Tri.put (fun _ h => h) (fun _ h => h) fun w h _ => h
  have l1 : ∀ {A : Type} (f : World τ L R P C M → Res A), Tri (fun w : World τ L R P C M => w.cat.log = false) (look f) (fun _ w => w.cat.log = false)
      (fun w => w.cat.log = false) := fun f => Tri.look fun _ h => h
  have main : Tri (fun w : World τ L R P C M => w.cat.log = false) (tcCompute n o path category) (fun _ w => w.cat.log = false)
      (fun w => w.cat.log = false) := by
    unfold tcCompute current
    exact Tri.next (l1 _) fun cs => Tri.next (l1 _) fun _ => Tri.next (l1 _) fun ts => Tri.next (l1 _) fun _ => Tri.next (tcLoop_log n path ts false _) fun _ =>
      Tri.next (l1 _) fun pc => Tri.next (p1 _ _) fun _ => Tri.next (p1 _ _) fun _ => Tri.next (p1 _ _) fun _ => Tri.next (l1 _) fun ts =>
      Tri.next (Tri.collect (fun _ h => h) (fun c => tcExtremum_log n cs.2 ts c) pc.2) fun l => Tri.next (p1 _ _) fun _ => l1 _
  exact (main w h).1

/-- No step changes the lists, the other flag or the LSF width. -/
def Kept (c : Cat τ L) (w : World τ L R P C M) : Prop := Same c w.cat

theorem kept_seq {A : Type} {I : World τ L R P C M → Prop} {x : Step τ L R P C M A} (h : ∀ w, I w → I (x w).1) :
    Tri I x (fun _ w => I w) I := fun w hw => ⟨h w hw, fun _ _ => h w hw⟩

/-- No solver changes the lists of the catalogue. -/
theorem C185_lists (j : Job τ L R P C F M) (w : World τ L R P C M) : Same w.cat (j.run w).1.cat := by
  have l1 : ∀ {A : Type} (f : World τ L R P C M → Res A), Tri (Kept w.cat) (look f) (fun _ w' => Kept w.cat w') (Kept w.cat) :=
    fun f => Tri.look fun _ h => h
  have s1 : ∀ b, Tri (Kept (R := R) (P := P) (C := C) (M := M) w.cat) (setLog b) (fun _ w' => Kept w.cat w') (Kept w.cat) := fun b => kept_seq fun w h => h
  have p1 : ∀ path nm v, Tri (Kept (R := R) (P := P) (C := C) (M := M) w.cat) (put path nm v) (fun _ w' => Kept w.cat w') (Kept w.cat) :=
    fun path nm v => kept_seq fun w h => h
  have q1 : ∀ path t nm v, Tri (Kept (R := R) (P := P) (C := C) (M := M) w.cat) (putTpl path t nm v) (fun _ w' => Kept w.cat w') (Kept w.cat) :=
    fun path t nm v => kept_seq fun w h => h
  have main : Tri (Kept w.cat) j.run (fun _ w' => Kept w.cat w') (Kept w.cat) := by
    cases j with
    | tf n o path category =>
      have hs : ∀ types t, Tri (Kept w.cat) (tfSolve n (oper o) path types t) (fun _ w' => Kept w.cat w') (Kept w.cat) := by
        intro types t
        cases t with
        | none => exact l1 _
        | some t => exact Tri.seq (fun _ h => h) _ fun ty _ => Tri.next (l1 _) fun r => q1 _ _ _ _
      have hl : ∀ types (k j : Nat), Tri (Kept w.cat) (tfLoop n (oper o) path category types j k) (fun _ w' => Kept w.cat w') (Kept w.cat) := by
        intro types k
        induction k with
        | zero => intro j; exact l1 _
        | succ k ih => intro j; exact Tri.next (l1 _) fun t => Tri.next (hs types t) fun _ => ih (j + 1)
      have hx : ∀ scope c, Tri (Kept w.cat) (tfExtremum n (oper o) category scope c) (fun _ w' => Kept w.cat w') (Kept w.cat) := fun scope c =>
        Tri.next (l1 _) fun _ => Tri.next (l1 _) fun _ => Tri.next (s1 _) fun _ => Tri.next (l1 _) fun _ => Tri.next (l1 _) fun _ =>
          Tri.next (s1 _) fun _ => l1 _
      have hf : Tri (Kept (R := R) (P := P) (C := C) (M := M) w.cat) (if o.fft then setLog false else look fun _ => .ok ()) (fun _ w' => Kept w.cat w') (Kept w.cat) := by
        by_cases hf : o.fft = true
        · rw [if_pos hf]; exact s1 _
        · rw [if_neg hf]; exact l1 _
      unfold Job.run tfCompute
      exact Tri.next (l1 _) fun _ => Tri.next (s1 _) fun _ => Tri.next (l1 _) fun cs => Tri.next (l1 _) fun k => Tri.next (hl _ k 0) fun _ =>
        Tri.next (l1 _) fun pc => Tri.next (p1 _ _ _) fun _ => Tri.next (p1 _ _ _) fun _ => Tri.next (p1 _ _ _) fun _ => Tri.next hf fun _ =>
        Tri.next (l1 _) fun _ => Tri.next (Tri.collect (fun _ h => h) (fun c => hx cs.2 c) pc.2) fun l => Tri.next (p1 _ _ _) fun _ => l1 _
    | tc n o path category =>
      have hl : ∀ ts tys, Tri (Kept w.cat) (tcLoop n path ts tys) (fun _ w' => Kept w.cat w') (Kept w.cat) := by
        intro ts tys
        induction tys with
        | nil => exact l1 _
        | cons ty tys ih =>
          refine Tri.next (l1 _) fun r => ?_
          cases r with
          | none => exact l1 _
          | some r => exact Tri.next (p1 _ _ _) fun _ => ih
      have hx : ∀ scope ts c, Tri (Kept w.cat) (tcExtremum n scope ts c) (fun _ w' => Kept w.cat w') (Kept w.cat) := fun scope ts c =>
        Tri.next (l1 _) fun _ => Tri.next (l1 _) fun _ => Tri.next (s1 _) fun _ => Tri.next (l1 _) fun _ => Tri.next (s1 _) fun _ => l1 _
      unfold Job.run tcCompute current
      exact Tri.next (l1 _) fun cs => Tri.next (l1 _) fun _ => Tri.next (l1 _) fun ts => Tri.next (l1 _) fun _ => Tri.next (hl ts _) fun _ =>
        Tri.next (l1 _) fun pc => Tri.next (p1 _ _ _) fun _ => Tri.next (p1 _ _ _) fun _ => Tri.next (p1 _ _ _) fun _ => Tri.next (l1 _) fun ts =>
        Tri.next (Tri.collect (fun _ h => h) (fun c => hx cs.2 ts c) pc.2) fun l => Tri.next (p1 _ _ _) fun _ => l1 _
    | lm f category => exact kept_seq fun w h => h
  exact (main w ⟨rfl, rfl, rfl⟩).1

/-- A history in which every FFT template fitting run ended well. -/
def Clean : List (Job τ L R P C F M) → World τ L R P C M → Prop
  | [], _ => True
  | j :: js, w => (∀ n o path category, j = .tf n o path category → o.fft = true → ∃ x, (j.run w).2 = .ok x) ∧ Clean js (j.run w).1

theorem job_log (j : Job τ L R P C F M) (w : World τ L R P C M) (h : w.cat.log = false)
    (hc : ∀ n o path category, j = .tf n o path category → o.fft = true → ∃ x, (j.run w).2 = .ok x) : (j.run w).1.cat.log = false := by
  cases j with
  | tf n o path category =>
    by_cases hop : (o.fft && o.phot) = true
    · have : tfCompute n o path category w = (w, .throw .FFT_WITH_PHOTOMETRY_NOTIMPLEMENTED) := by
        unfold tfCompute
        rw [if_pos hop]
        rfl
      show (tfCompute n o path category w).1.cat.log = false
      rw [this]
      exact h
    · have hop' : (o.fft && o.phot) = false := by simpa using hop
      show (tfCompute n o path category w).1.cat.log = false
      by_cases hf : o.fft = true
      · obtain ⟨x, hx⟩ := hc n o path category rfl hf
        exact tfCompute_ok_log n o path category w x hx
      · exact tfCompute_plain_log n o path category w (by simpa using hf) h
  | tc n o path category => exact tcCompute_log n o path category w h
  | lm f category => exact h

theorem session_clean : ∀ (js : List (Job τ L R P C F M)) (w : World τ L R P C M), w.cat.log = false → Clean js w →
    (session js w).cat = w.cat := by
  intro js
  induction js with
  | nil => intro w _ _; rfl
  | cons j js ih =>
    intro w hw hc
    have h1 := job_log j w hw hc.1
    have h2 := C185_lists j w
    have h3 : (j.run w).1.cat = w.cat := by
      have := same_flag h2 false
      have e1 : ({ w.cat with log := false } : Cat τ L) = w.cat := by rw [← hw]
      have e2 : ({ (j.run w).1.cat with log := false } : Cat τ L) = (j.run w).1.cat := by rw [← h1]
      rw [e1, e2] at this
      exact this.symm
    show (session js (j.run w).1).cat = w.cat
    rw [ih _ h1 hc.2, h3]

/-- **C185 (partial).** After any run of solvers in which no FFT template fitting failed, a solver ends as it does, and stores what it does, with the
catalogue as the initialisation left it. Without that condition it is true of the template fitting solver (`C185_template_fitting`) and false of the
others (`C185_false`). -/
theorem C185_history_partial (js : List (Job τ L R P C F M)) (j : Job τ L R P C F M) (w : World τ L R P C M) (h : Clean js (initFlags w)) :
    j.run (session js (initFlags w)) = j.run ⟨(initFlags w).cat, (session js (initFlags w)).store⟩ := by
  have e := session_clean js (initFlags w) rfl h
  have : session js (initFlags w) = ⟨(initFlags w).cat, (session js (initFlags w)).store⟩ := by
    cases hs : session js (initFlags w) with
    | mk c s => rw [hs] at e; simp only at e; rw [e]
  exact congrArg j.run this

end TplRun
end Amazed
