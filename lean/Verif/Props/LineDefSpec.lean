import Verif.Model.LineDef
import Verif.Props.LineCatProps

set_option linter.unusedVariables false
set_option linter.unusedSectionVars false
set_option linter.unusedSimpArgs false

/-! # Catalogues as values

Specification of the calls on catalogues, without heap and pointers, and proof that the program does what it says for every history of calls.

C187 A catalogue is a value: what a catalogue holds depends on the calls made on it, and, for a copy, on what the original held when it was copied. No later call on one catalogue is seen in
another; no profile is used after its deletion, deleted twice or lost. -/

namespace Amazed
namespace LineDef
open Amp (LType Force)
open LineCat (mapPut mapFind string2Type string2Force Keyed mapPut_keyed mapFind_mem mapFind_put mapPut_append mapPut_keys)
open Lya (AsymP)

variable {K : Type} [Field K] [LinearOrder K]

/-- A catalogue as a value. -/
abbrev VCat (K : Type) := Cat K (Prof K)

/-- The line that the user describes, in a catalogue of support `ns`. -/
def described (ns : K) (a : Params K) : Res (Rec K (Prof K)) := do
  let t ← string2Type a.type
  let f ← string2Force a.force
  let v ← profileAdd ns a.profile a.asym a.igm
  pure ⟨a.id, a.strId, a.name, a.group, a.velGroup, t, f, a.pos, a.offset, a.offsetFit, a.nom, v⟩

/-- `setAsymProfileAndParams` on values: all the asymmetric profiles replaced, or nothing changed if the name is not known and a profile is to be replaced. -/
def asymV (name : String) (q : AsymP K) (c : VCat K) : VCat K × Option Err :=
  match profileSet c.ns name q none with
  | .ok w => (⟨c.ns, c.lines.map fun x => if x.2.prof.isAsymAny then (x.1, { x.2 with prof := w }) else x⟩, none)
  | _ => (c, if c.lines.any (fun x => x.2.prof.isAsymAny) then some .INTERNAL_ERROR else none)

/-- `convertLineProfiles2SYMIGM` on values. -/
def convV (igm : Option Nat) (c : VCat K) : VCat K :=
  ⟨c.ns, c.lines.map fun x => if underLya x.2 then (x.1, { x.2 with prof := .symIgm c.ns igm none none false }) else x⟩

/-- A call on values: the catalogues after it and the exception, `none` if the behaviour is undefined. -/
def spec (s : List (VCat K)) : Call K → Option (List (VCat K) × Option Err)
  | .new ns => some (s ++ [⟨ns, []⟩], none)
  | .add k a => s[k]?.bind fun c => match described c.ns a with
    | .ok l => some (s.set k ⟨c.ns, mapPut a.id l c.lines⟩, none)
    | .throw e => some (s, some e)
    | .ub => none
  | .copy k => s[k]?.bind fun c => some (s ++ [c], none)
  | .ratio k => s[k]?.bind fun c => some (s ++ [⟨c.ns, c.lines.map fun x => (x.1, { x.2 with nom := 0 })⟩], none)
  | .filter k t f => s[k]?.bind fun c => some (s ++ [⟨c.ns, c.lines.filter fun x => kept t f x.2⟩], none)
  | .amp k id a => s[k]?.bind fun c => match mapFind id c.lines with
    | some l => some (s.set k ⟨c.ns, mapPut id { l with nom := a } c.lines⟩, none)
    | none => some (s, some .INTERNAL_ERROR)
  | .asym k name q => s[k]?.bind fun c => some (s.set k (asymV name q c).1, (asymV name q c).2)
  | .conv k igm => s[k]?.bind fun c => some (s.set k (convV igm c), none)

/-- A history on values. -/
def specRun : List (VCat K) → List (Call K) → Option (List (VCat K) × List (Option Err))
  | s, [] => some (s, [])
  | s, c :: cs => (spec s c).bind fun r => (specRun r.1 cs).map fun q => (q.1, r.2 :: q.2)

/-- What the catalogue of the program holds, read through its pointers. -/
def view (h : Heap K) (c : Cat K (Option Nat)) : Res (VCat K) :=
  c.lines.foldr (fun x r => read h x.2.prof >>= fun v => r >>= fun m => .ok ((x.1, x.2.withProf v) :: m)) (.ok []) >>= fun m => .ok ⟨c.ns, m⟩

/-! ## Lines and cells -/

/-- The line of the program `x` is the line `y`. -/
def Holds (h : Heap K) (x : ℤ × Ln K) (y : ℤ × Rec K (Prof K)) : Prop :=
  ∃ a, x.2.prof = some a ∧ h[a]? = some (some y.2.prof) ∧ y = (x.1, x.2.withProf y.2.prof)

/-- The address belongs to a line. -/
def Owns (m : Lines K) (a : Nat) : Prop := ∃ x ∈ m, x.2.prof = some a

/-- No address belongs to two lines. -/
def Inj (m : Lines K) : Prop := ∀ x ∈ m, ∀ y ∈ m, ∀ a, x.2.prof = some a → y.2.prof = some a → x.1 = y.1

/-- The lines `m` in the heap are the lines `mv`. -/
structure Good (h : Heap K) (m : Lines K) (mv : List (ℤ × Rec K (Prof K))) : Prop where
  holds : List.Forall₂ (Holds h) m mv
  inj : Inj m
  keyed : Keyed m

/-- What a call working on `m` may change in the heap. -/
structure Foot (h : Heap K) (m : Lines K) (h' : Heap K) (m' : Lines K) : Prop where
  frame : ∀ a < h.length, ¬ Owns m a → h'[a]? = h[a]?
  fresh : ∀ a, Owns m' a → Owns m a ∨ h.length ≤ a
  mono : h.length ≤ h'.length
  noleak : ∀ a v, h'[a]? = some (some v) → Owns m' a ∨ (h[a]? = some (some v) ∧ ¬ Owns m a)

theorem lt_of_cell {h : Heap K} {a : Nat} {v : Option (Prof K)} (e : h[a]? = some v) : a < h.length := by
  rcases Nat.lt_or_ge a h.length with h' | h'
  · exact h'
  · rw [List.getElem?_eq_none h'] at e; cases e

theorem read_cell {h : Heap K} {a : Nat} {v : Prof K} (e : h[a]? = some (some v)) : read h (some a) = .ok v := by
  simp [read, e]

theorem free_cell {h : Heap K} {a : Nat} {v : Prof K} (e : h[a]? = some (some v)) : free h (some a) = .ok (h.set a none) := by
  simp [free, e]

theorem Good.nil (h : Heap K) : Good h [] [] := ⟨.nil, by intro x hx; simp at hx, List.Pairwise.nil⟩

theorem Good.owned {h : Heap K} {m : Lines K} {mv} (g : Good h m mv) {a : Nat} (o : Owns m a) : a < h.length := by
  obtain ⟨x, hx, e⟩ := o
  obtain ⟨i, hi, rfl⟩ := List.getElem_of_mem hx
  have hl := g.holds.length_eq
  obtain ⟨a', h1, h2, _⟩ := List.forall₂_iff_get.1 g.holds |>.2 i hi (by omega)
  rw [List.get_eq_getElem] at h1
  rw [e] at h1; cases h1
  exact lt_of_cell h2

theorem Good.null {h : Heap K} {m : Lines K} {mv} (g : Good h m mv) {x} (hx : x ∈ m) : ∃ a v, x.2.prof = some a ∧ h[a]? = some (some v) := by
  obtain ⟨i, hi, rfl⟩ := List.getElem_of_mem hx
  have hl := g.holds.length_eq
  obtain ⟨a', h1, h2, _⟩ := List.forall₂_iff_get.1 g.holds |>.2 i hi (by omega)
  exact ⟨a', _, by simpa using h1, h2⟩

/-- Lines whose cells are unchanged are unchanged. -/
theorem Good.same {h h' : Heap K} {m : Lines K} {mv} (g : Good h m mv) (e : ∀ a, Owns m a → h'[a]? = h[a]?) : Good h' m mv := by
  refine ⟨?_, g.inj, g.keyed⟩
  have := g.holds
  have e' : ∀ x ∈ m, ∀ a, x.2.prof = some a → h'[a]? = h[a]? := fun x hx a ha => e a ⟨x, hx, ha⟩
  clear e g
  induction this with
  | nil => exact .nil
  | @cons x y xs ys hxy _ ih =>
    obtain ⟨a, h1, h2, h3⟩ := hxy
    refine .cons ⟨a, h1, ?_, h3⟩ (ih fun x hx => e' x (List.mem_cons_of_mem _ hx))
    rw [e' x (List.mem_cons_self) a h1, h2]

theorem Holds.key {h : Heap K} {x y} (e : Holds h x y) : x.1 = y.1 := by
  obtain ⟨a, _, _, e⟩ := e; rw [e]

theorem Good.keyedV {h : Heap K} {m : Lines K} {mv} (g : Good h m mv) : Keyed mv := by
  have k := g.keyed
  have f := g.holds
  clear g
  induction f with
  | nil => exact List.Pairwise.nil
  | @cons x y xs ys hxy hs ih =>
    have k' := List.pairwise_cons.1 k
    refine List.pairwise_cons.2 ⟨?_, ih k'.2⟩
    intro z hz
    obtain ⟨i, hi, rfl⟩ := List.getElem_of_mem hz
    have hl := hs.length_eq
    have := (List.forall₂_iff_get.1 hs).2 i (by omega) hi
    rw [← hxy.key]
    have e := this.key
    simp only [List.get_eq_getElem] at e
    rw [← e]
    exact k'.1 _ (List.getElem_mem _)

theorem view_cons (h : Heap K) (ns : K) (x : ℤ × Ln K) (m : Lines K) : view h ⟨ns, x :: m⟩ =
    (read h x.2.prof >>= fun v => view h ⟨ns, m⟩ >>= fun c => .ok ⟨c.ns, (x.1, x.2.withProf v) :: c.lines⟩) := by
  unfold view
  simp only [List.foldr_cons]
  cases read h x.2.prof with
  | ok v =>
    simp only [Res.bind_ok]
    cases (List.foldr (fun (x : ℤ × Ln K) (r : Res (List (ℤ × Rec K (Prof K)))) => read h x.2.prof >>= fun v => r >>= fun m => .ok ((x.1, x.2.withProf v) :: m)) (.ok []) m) with
    | ok v => simp only [Res.bind_ok]
    | throw e => simp only [Res.bind_throw]
    | ub => simp only [Res.bind_ub]
  | throw e => simp only [Res.bind_throw]
  | ub => simp only [Res.bind_ub]

theorem Good.view {h : Heap K} {m : Lines K} {mv} (g : Good h m mv) (ns : K) : view h ⟨ns, m⟩ = .ok ⟨ns, mv⟩ := by
  have f := g.holds
  clear g
  induction f with
  | nil => rfl
  | @cons x y xs ys hxy _ ih =>
    rw [view_cons, ih]
    obtain ⟨a, h1, h2, h3⟩ := hxy
    rw [h1, read_cell h2]
    simp only [Res.bind_ok]
    rw [← h3]

/-! ## Putting a line in a map -/

theorem mapPut_mem {G V : Type} [LinearOrder G] (k : G) (v : V) : ∀ (m : List (G × V)), Keyed m → ∀ x, x ∈ mapPut k v m ↔ x = (k, v) ∨ (x ∈ m ∧ x.1 ≠ k) := by
  intro m hm x
  have hk := mapPut_keyed k v m hm
  obtain ⟨a, b⟩ := x
  rw [← mapFind_mem hk, mapFind_put]
  by_cases e : a = k
  · subst e
    simp [eq_comm]
  · rw [if_neg e, mapFind_mem hm]
    simp [e]

theorem forall₂_put {G V W : Type} [LinearOrder G] {R R' : G × V → G × W → Prop} (hR : ∀ x y, R x y → x.1 = y.1) (k : G) (v : V) (w : W) (hv : R' (k, v) (k, w)) :
    ∀ (m : List (G × V)) (mv : List (G × W)), List.Forall₂ R m mv → Keyed m → (∀ x ∈ m, x.1 ≠ k → ∀ y, R x y → R' x y) →
    List.Forall₂ R' (mapPut k v m) (mapPut k w mv) := by
  intro m mv f
  induction f with
  | nil => intro _ _; exact .cons hv .nil
  | @cons x y xs ys hxy hs ih =>
    intro hk hm
    have hk' := List.pairwise_cons.1 hk
    have e := hR x y hxy
    have all : (∀ x ∈ xs, x.1 ≠ k) → List.Forall₂ R' xs ys := by
      intro hne
      refine List.Forall₂.imp ?_ ((List.forall₂_and_left (p := fun x => x ∈ xs) (R := R) _ _).2 ⟨fun x hx => hx, hs⟩)
      intro a b hab
      exact hm a (List.mem_cons_of_mem _ hab.1) (hne a hab.1) b hab.2
    unfold mapPut
    obtain ⟨x1, x2⟩ := x
    obtain ⟨y1, y2⟩ := y
    simp only at e ⊢
    subst e
    by_cases c1 : k < x1
    · rw [if_pos c1, if_pos c1]
      refine .cons hv (.cons (hm _ List.mem_cons_self (ne_of_gt c1) _ hxy) (all ?_))
      intro z hz
      exact ne_of_gt (lt_trans c1 (hk'.1 z hz))
    · rw [if_neg c1, if_neg c1]
      by_cases c2 : k = x1
      · rw [if_pos c2, if_pos c2]
        refine .cons hv (all ?_)
        intro z hz
        rw [c2]
        exact ne_of_gt (hk'.1 z hz)
      · rw [if_neg c2, if_neg c2]
        exact .cons (hm _ List.mem_cons_self (Ne.symm c2) _ hxy) (ih hk'.2 fun z hz => hm z (List.mem_cons_of_mem _ hz))

end LineDef
end Amazed
