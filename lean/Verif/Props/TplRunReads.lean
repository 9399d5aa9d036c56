import Verif.Props.TplRunProps

set_option linter.unusedVariables false
set_option linter.unusedSectionVars false

/-! # C185: which lists of the catalogue the solvers read -/

namespace Amazed
namespace TplRun
open TplCat

variable {τ L R P C F M : Type}

/-- Two states that a solver of the category cannot tell apart when it reads the linear templates, and the log-sampled ones if `b`. -/
def Alike (b : Bool) (category : String) (w w' : World τ L R P C M) : Prop :=
  w.store = w'.store ∧ w.cat.ortho = w'.cat.ortho ∧ w.cat.log = w'.cat.log ∧ (w.cat.log = true → b = true) ∧
    w.cat.lists w.cat.ortho false category = w'.cat.lists w'.cat.ortho false category ∧
    (b = true → w.cat.lists w.cat.ortho true category = w'.cat.lists w'.cat.ortho true category)

/-- Two steps that end alike from states that are alike. -/
def Sim {A : Type} (b : Bool) (category : String) (V : A → Prop) (x y : Step τ L R P C M A) : Prop :=
  ∀ w w', Alike b category w w' → (x w).2 = (y w').2 ∧ Alike b category (x w).1 (y w').1 ∧ ∀ a, (x w).2 = .ok a → V a

theorem Sim.next {A B : Type} {b : Bool} {category : String} {V : A → Prop} {V' : B → Prop} {x y : Step τ L R P C M A} {f g : A → Step τ L R P C M B}
    (h : Sim b category V x y) (h2 : ∀ a, V a → Sim b category V' (f a) (g a)) : Sim b category V' (TplRun.next x f) (TplRun.next y g) := by
  intro w w' hw
  obtain ⟨g1, g2, g3⟩ := h w w' hw
  rw [next_eq, next_eq, ← g1]
  cases hx : (x w).2 with
  | ok a => exact h2 a (g3 a hx) _ _ g2
  | throw e => exact ⟨rfl, g2, fun a ha => nomatch ha⟩
  | ub => exact ⟨rfl, g2, fun a ha => nomatch ha⟩

theorem Sim.look {A : Type} {b : Bool} {category : String} {V : A → Prop} {f g : World τ L R P C M → Res A}
    (h : ∀ w w', Alike b category w w' → f w = g w' ∧ ∀ a, f w = .ok a → V a) : Sim b category V (TplRun.look f) (TplRun.look g) :=
  fun w w' hw => ⟨(h w w' hw).1, hw, (h w w' hw).2⟩

theorem Sim.store {A : Type} {b : Bool} {category : String} (f : ResultStore (Val R P C M) → Res A) :
    Sim (τ := τ) (L := L) b category (fun _ => True) (TplRun.look fun w => f w.store) (TplRun.look fun w => f w.store) :=
  Sim.look fun w w' hw => ⟨by rw [hw.1], fun _ _ => trivial⟩

theorem Sim.const {A : Type} {b : Bool} {category : String} (r : Res A) :
    Sim (τ := τ) (L := L) (R := R) (P := P) (C := C) (M := M) b category (fun _ => True) (TplRun.look fun _ => r) (TplRun.look fun _ => r) :=
  Sim.look fun w w' hw => ⟨rfl, fun _ _ => trivial⟩

theorem Sim.put {b : Bool} {category : String} (path nm : String) (v : Val R P C M) :
    Sim (τ := τ) (L := L) b category (fun _ => True) (put path nm v) (put path nm v) := by
  intro w w' ⟨h1, h2⟩
  unfold TplRun.put
  rw [h1]
  exact ⟨rfl, ⟨rfl, h2⟩, fun _ _ => trivial⟩

theorem Sim.putTpl {b : Bool} {category : String} (path t nm : String) (v : Val R P C M) :
    Sim (τ := τ) (L := L) b category (fun _ => True) (putTpl path t nm v) (putTpl path t nm v) := by
  intro w w' ⟨h1, h2⟩
  unfold TplRun.putTpl
  rw [h1]
  exact ⟨rfl, ⟨rfl, h2⟩, fun _ _ => trivial⟩

theorem Sim.setLog {b : Bool} {category : String} (c : Bool) (hc : c = true → b = true) :
    Sim (τ := τ) (L := L) (R := R) (P := P) (C := C) (M := M) b category (fun _ => True) (setLog c) (setLog c) := by
  intro w w' ⟨h1, h2, h3, h4, h5, h6⟩
  exact ⟨rfl, ⟨h1, h2, rfl, hc, h5, h6⟩, fun _ _ => trivial⟩

theorem Sim.log {b : Bool} {category : String} :
    Sim (τ := τ) (L := L) (R := R) (P := P) (C := C) (M := M) b category (fun c => c = true → b = true) (TplRun.look fun w => .ok w.cat.log)
      (TplRun.look fun w => .ok w.cat.log) :=
  Sim.look fun w w' hw => ⟨by rw [hw.2.2.1], fun a ha => by cases ha; exact hw.2.2.2.1⟩

/-- The list of the current flags is the same. -/
theorem alike_lists {b : Bool} {category : String} {w w' : World τ L R P C M} (h : Alike b category w w') :
    w.cat.lists w.cat.ortho w.cat.log category = w'.cat.lists w'.cat.ortho w'.cat.log category := by
  obtain ⟨h1, h2, h3, h4, h5, h6⟩ := h
  rw [← h3]
  cases hl : w.cat.log with
  | false => exact h5
  | true => exact h6 (h4 hl)

theorem Sim.seq {A : Type} {b : Bool} {category : String} {f g : A → Step τ L R P C M Unit} :
    ∀ l : List A, (∀ a ∈ l, Sim b category (fun _ => True) (f a) (g a)) → Sim b category (fun _ => True) (TplRun.seq f l) (TplRun.seq g l) := by
  intro l
  induction l with
  | nil => intro _; exact Sim.const _
  | cons a as ih => intro h; exact Sim.next (h a (List.mem_cons_self ..)) fun _ _ => ih fun c hc => h c (List.mem_cons_of_mem _ hc)

theorem Sim.collect {A B : Type} {b : Bool} {category : String} {f g : A → Step τ L R P C M B}
    (h : ∀ a, Sim b category (fun _ => True) (f a) (g a)) :
    ∀ l : List A, Sim b category (fun _ => True) (TplRun.collect f l) (TplRun.collect g l) := by
  intro l
  induction l with
  | nil => exact Sim.const _
  | cons a as ih => exact Sim.next (h a) fun _ _ => Sim.next ih fun _ _ => Sim.const _

theorem tfExtremum_sim (n : TfEnv τ R P C F M) (op : Oper) (b : Bool) (category scope : String) (c : C) :
    Sim (L := L) b category (fun _ => True) (tfExtremum n op category scope c) (tfExtremum n op category scope c) := by
  unfold tfExtremum
  refine Sim.next (Sim.store fun s => n.best scope s c) fun x _ => Sim.next Sim.log fun cur hcur => Sim.next (Sim.setLog false (by simp)) fun _ _ =>
    Sim.next (V := fun _ => True) (Sim.look fun w w' hw => ⟨?_, fun _ _ => trivial⟩) fun t _ => Sim.next (Sim.const _) fun m _ =>
    Sim.next (Sim.setLog cur hcur) fun _ _ => Sim.const _
  have e := alike_lists hw
  unfold getByName TplCat.get
  rw [e]
  rfl

/-- **C185, lists read by the template fitting.** The run, whatever the catalogue holds besides, depends only on the linear templates of its category and,
with FFT, on the log-sampled ones of its category. -/
theorem C185_reads_template_fitting (n : TfEnv τ R P C F M) (o : TfOpts) (path category : String) (c c' : Cat τ L) (s : ResultStore (Val R P C M))
    (ho : c.ortho = c'.ortho) (h1 : c.lists c.ortho false category = c'.lists c'.ortho false category)
    (h2 : o.fft = true → c.lists c.ortho true category = c'.lists c'.ortho true category) :
    (tfCompute n o path category ⟨c, s⟩).2 = (tfCompute n o path category ⟨c', s⟩).2 ∧
    (tfCompute n o path category ⟨c, s⟩).1.store = (tfCompute n o path category ⟨c', s⟩).1.store := by
  have hs : ∀ types t, Sim (L := L) o.fft category (fun _ => True) (tfSolve n (oper o) path types t) (tfSolve n (oper o) path types t) := by
    intro types t
    cases t with
    | none => exact Sim.const _
    | some t => exact Sim.seq _ fun ty _ => Sim.next (Sim.const _) fun r _ => Sim.putTpl _ _ _ _
  have hl : ∀ types (k j : Nat), Sim (L := L) o.fft category (fun _ => True) (tfLoop n (oper o) path category types j k)
      (tfLoop n (oper o) path category types j k) := by
    intro types k
    induction k with
    | zero => intro j; exact Sim.const _
    | succ k ih =>
      intro j
      refine Sim.next (V := fun _ => True) (Sim.look fun w w' hw => ⟨?_, fun _ _ => trivial⟩) fun t _ => Sim.next (hs types t) fun _ _ => ih (j + 1)
      unfold getTemplate
      rw [alike_lists hw]
  have hf : Sim (τ := τ) (L := L) (R := R) (P := P) (C := C) (M := M) o.fft category (fun _ => True) (if o.fft then setLog false else look fun _ => .ok ())
      (if o.fft then setLog false else look fun _ => .ok ()) := by
    by_cases hf : o.fft = true
    · rw [if_pos hf]; exact Sim.setLog false (by simp)
    · rw [if_neg hf]; exact Sim.const _
  have main : Sim (L := L) o.fft category (fun _ => True) (tfCompute n o path category) (tfCompute n o path category) := by
    unfold tfCompute
    refine Sim.next (Sim.const _) fun _ _ => Sim.next (Sim.setLog o.fft fun h => h) fun _ _ => Sim.next (Sim.const _) fun cs _ =>
      Sim.next (V := fun _ => True) (Sim.look fun w w' hw => ⟨?_, fun _ _ => trivial⟩) fun k _ => Sim.next (hl _ k 0) fun _ _ =>
      Sim.next (Sim.store fun s => n.pdf cs.2 s) fun pc _ => Sim.next (Sim.put _ _ _) fun _ _ => Sim.next (Sim.put _ _ _) fun _ _ =>
      Sim.next (Sim.put _ _ _) fun _ _ => Sim.next hf fun _ _ => Sim.next (Sim.store fun s => n.check cs.2 s) fun _ _ =>
      Sim.next (Sim.collect (fun x => tfExtremum_sim n _ _ category cs.2 x) _) fun l _ => Sim.next (Sim.put _ _ _) fun _ _ => Sim.const _
    unfold count
    rw [alike_lists hw]
  obtain ⟨e1, e2, -⟩ := C185_template_fitting n o path category c { c with log := false } ⟨rfl, rfl, rfl⟩ s
  obtain ⟨f1, f2, -⟩ := C185_template_fitting n o path category c' { c' with log := false } ⟨rfl, rfl, rfl⟩ s
  obtain ⟨g1, g2, -⟩ := main ⟨{ c with log := false }, s⟩ ⟨{ c' with log := false }, s⟩ ⟨rfl, ho, rfl, (fun h => nomatch h), h1, h2⟩
  exact ⟨(e1.trans g1).trans f1.symm, (e2.trans g2.1).trans f2.symm⟩

/-- **C185, lists read by the template combination.** In a catalogue in linear sampling, the run depends only on the linear templates of its category. -/
theorem C185_reads_template_combination (n : TcEnv τ R P C F M) (o : TcOpts) (path category : String) (c c' : Cat τ L) (s : ResultStore (Val R P C M))
    (ho : c.ortho = c'.ortho) (hl : c.log = false) (hl' : c'.log = false)
    (h1 : c.lists c.ortho false category = c'.lists c'.ortho false category) :
    (tcCompute n o path category ⟨c, s⟩).2 = (tcCompute n o path category ⟨c', s⟩).2 ∧
    (tcCompute n o path category ⟨c, s⟩).1.store = (tcCompute n o path category ⟨c', s⟩).1.store := by
  have hcur : Sim (τ := τ) (L := L) (R := R) (P := P) (C := C) (M := M) false category (fun _ => True) (current category) (current category) := by
    refine Sim.look fun w w' hw => ⟨?_, fun _ _ => trivial⟩
    unfold templateList TplCat.get
    simp only [List.flatMap_cons, List.flatMap_nil]
    rw [alike_lists hw]
  have hloop : ∀ ts tys, Sim (L := L) false category (fun _ => True) (tcLoop n path ts tys) (tcLoop n path ts tys) := by
    intro ts tys
    induction tys with
    | nil => exact Sim.const _
    | cons ty tys ih =>
      refine Sim.next (Sim.const _) fun r _ => ?_
      cases r with
      | none => exact Sim.const _
      | some r => exact Sim.next (Sim.put _ _ _) fun _ _ => ih
  have hx : ∀ scope ts x, Sim (L := L) false category (fun _ => True) (tcExtremum n scope ts x) (tcExtremum n scope ts x) := fun scope ts x =>
    Sim.next (Sim.store fun s => n.params scope s x) fun _ _ => Sim.next Sim.log fun cur hcur => Sim.next (Sim.setLog false (by simp)) fun _ _ =>
      Sim.next (Sim.const _) fun m _ => Sim.next (Sim.setLog cur hcur) fun _ _ => Sim.const _
  have main : Sim (L := L) false category (fun _ => True) (tcCompute n o path category) (tcCompute n o path category) := by
    unfold tcCompute
    exact Sim.next (Sim.const _) fun cs _ => Sim.next (Sim.const _) fun _ _ => Sim.next hcur fun ts _ => Sim.next (Sim.const _) fun _ _ =>
      Sim.next (hloop ts _) fun _ _ => Sim.next (Sim.store fun s => n.pdf cs.2 s) fun pc _ => Sim.next (Sim.put _ _ _) fun _ _ =>
      Sim.next (Sim.put _ _ _) fun _ _ => Sim.next (Sim.put _ _ _) fun _ _ => Sim.next hcur fun ts _ =>
      Sim.next (Sim.collect (fun x => hx cs.2 ts x) _) fun l _ => Sim.next (Sim.put _ _ _) fun _ _ => Sim.const _
  obtain ⟨g1, g2, -⟩ := main ⟨c, s⟩ ⟨c', s⟩ ⟨rfl, ho, hl.trans hl'.symm, (fun h => by rw [hl] at h; cases h), h1, fun h => nomatch h⟩
  exact ⟨g1, g2.1⟩

/-! ## A failed FFT run changes what the next solver reads -/

namespace Demo

/-- Templates are numbers, all of the same name; the linear template of the category is 1, its log-sampled one 2. -/
def cat : Cat Nat Unit := ⟨fun o l c => if o = false ∧ c = "galaxy" then some [some (if l then 2 else 1)] else
    if o = false ∧ c = "star" ∧ l = false then some [some 3] else none, false, false, none⟩

def world : World Nat Unit Nat Nat Nat Nat := ⟨cat, {}⟩

/-- A template fitting whose PDF fails. -/
def tfEnv : TfEnv Nat Nat Nat Nat Unit Nat :=
  ⟨⟨fun _ => "t", fun _ => "galaxy"⟩, fun _ t _ => .ok t, fun _ _ => .throw .PDF_PEAK_NOT_FOUND, fun _ _ => .ok (), fun _ _ _ => .ok ("t", ()),
    fun _ t _ _ => .ok t⟩

/-- A template combination whose model is the number of the template used. -/
def tcEnv : TcEnv Nat Nat Nat Nat Unit Nat :=
  ⟨fun l => if l = [] then .throw .BAD_TEMPLATECATALOG else .ok (), fun l _ => .ok (some 0), fun _ _ => .ok (0, [7]), fun _ _ _ => .ok (),
    fun l _ _ => .ok (l.headD none)⟩

def failing : Job Nat Unit Nat Nat Nat Unit Nat := .tf tfEnv ⟨true, false, "raw"⟩ "galaxy.tf" "galaxy"
def good : Job Nat Unit Nat Nat Nat Unit Nat :=
  .tf { tfEnv with pdf := fun _ _ => .ok (0, [5]) } ⟨true, false, "raw"⟩ "galaxy.tf" "galaxy"
def combination (category : String) : Job Nat Unit Nat Nat Nat Unit Nat := .tc tcEnv ⟨"lin", "raw"⟩ (category ++ ".tc") category

end Demo

/-- **C185 is false in general.** After an FFT template fitting of a galaxy that finds no peak, the template combination of a galaxy uses the
log-sampled template, with which it also computes the model, and the one of a star finds no template and fails; with the catalogue as the initialisation
left it they use the linear templates. -/
theorem C185_false :
    ((Demo.combination "galaxy").run (session [Demo.failing] (initFlags Demo.world))).2 = .ok (7, 2) ∧
    ((Demo.combination "galaxy").run (initFlags Demo.world)).2 = .ok (7, 1) ∧
    ((Demo.combination "star").run (session [Demo.failing] (initFlags Demo.world))).2 = .throw .BAD_TEMPLATECATALOG ∧
    ((Demo.combination "star").run (initFlags Demo.world)).2 = .ok (7, 3) := by
  decide +kernel

/-- The next initialisation puts the catalogue right: after it, the flags and lists are those of the initialisation of the first run. -/
theorem C185_recovery (js : List (Job τ L R P C F M)) (w : World τ L R P C M) : (initFlags (session js w)).cat = (initFlags w).cat := by
  have key : ∀ (js : List (Job τ L R P C F M)) (w : World τ L R P C M), Same w.cat (session js w).cat := by
    intro js
    induction js with
    | nil => intro w; exact ⟨rfl, rfl, rfl⟩
    | cons j js ih =>
      intro w
      obtain ⟨a1, a2, a3⟩ := C185_lists j w
      obtain ⟨b1, b2, b3⟩ := ih (j.run w).1
      exact ⟨a1.trans b1, a2.trans b2, a3.trans b3⟩
  obtain ⟨h1, h2, h3⟩ := key js w
  unfold initFlags
  simp only [← h1, ← h3]

/-- The hypotheses of `C185_history_partial` are met by an FFT template fitting followed by a template combination, which uses the linear template. -/
example : Clean [Demo.good, Demo.combination "galaxy"] (initFlags Demo.world) ∧ (Demo.good.run (initFlags Demo.world)).2 = .ok (5, 1) ∧
    ((Demo.combination "galaxy").run (session [Demo.good] (initFlags Demo.world))).2 = .ok (7, 1) :=
  ⟨⟨fun _ _ _ _ _ _ => ⟨(5, 1), by decide +kernel⟩, ⟨fun _ _ _ _ h => (nomatch h), trivial⟩⟩, by decide +kernel, by decide +kernel⟩

end TplRun
end Amazed
