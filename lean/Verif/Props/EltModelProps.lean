import Verif.Props.EltSupportTheo
import Mathlib.Algebra.BigOperators.Group.Finset.Basic
import Mathlib.Algebra.BigOperators.Group.Finset.Piecewise

set_option linter.unusedVariables false
set_option linter.unusedSectionVars false

/-! # C72: flux model of a line element -/

namespace Amazed
namespace EltSup

open Classical

variable {K : Type} [Field K] [LinearOrder K] [IsStrictOrderedRing K]

theorem foldl_sum (c : Nat → K) (q : Nat → Prop) [DecidablePred q] (n : Nat) (f : K → Nat → K)
    (hf : ∀ y k, f y k = if q k then y + c k else y) :
    (List.range n).foldl f 0 = ∑ k ∈ Finset.range n, if q k then c k else 0 := by
  induction n with
  | zero => simp
  | succ n ih =>
    rw [List.range_succ, List.foldl_append, Finset.sum_range_succ, ih]
    simp only [List.foldl_cons, List.foldl_nil, hf]
    split <;> simp

/-- The lines active on a support, summed. -/
theorem modelAt_eq (e : Elt) (em : Bool) (fl : Nat → LineFlux K) (x c : K) (r : Nat) (hr : e.outside = false) :
    modelAt e em fl x c r = ∑ k ∈ Finset.range e.n, if e.out k = false ∧ e.sup.act r k = true then contrib em (fl k) x c else 0 := by
  unfold modelAt
  rw [hr]
  simp only [Bool.false_eq_true, if_false]
  apply foldl_sum
  intro y k
  unfold Elt.out
  cases h1 : (e.theo k).out <;> cases h2 : e.sup.act r k <;> simp

theorem addRange_spec (f : Nat → K → Res K) (h : Nat → K → K) : ∀ (k i : Nat) (flux : List K), i + k ≤ flux.length →
    (∀ j y, i ≤ j → j < i + k → f j y = .ok (h j y)) →
    ∃ flux', addRange f k i flux = .ok flux' ∧ flux'.length = flux.length ∧
      ∀ p, flux'[p]? = (flux[p]?).map fun y => if i ≤ p ∧ p < i + k then h p y else y
  | 0, i, flux, _, _ => by
    refine ⟨flux, rfl, rfl, ?_⟩
    intro p
    have : ¬ (i ≤ p ∧ p < i + 0) := by omega
    simp only [if_neg this, Option.map_id']
  | k + 1, i, flux, hl, hf => by
    have hi : i < flux.length := by omega
    unfold addRange
    rw [Res.at_of_lt hi, Res.bind_ok, hf i _ (le_refl _) (by omega), Res.bind_ok]
    obtain ⟨flux', h1, h2, h3⟩ := addRange_spec f h k (i + 1) (flux.set i (h i flux[i])) (by simp; omega)
      (fun j y hj hj2 => hf j y (by omega) (by omega))
    refine ⟨flux', h1, by rw [h2]; simp, ?_⟩
    intro p
    rw [h3]
    by_cases hp : i = p
    · subst hp
      rw [List.getElem?_set_self hi, List.getElem?_eq_getElem hi]
      simp
    · rw [List.getElem?_set_ne hp]
      congr 1
      funext y
      have : (i + 1 ≤ p ∧ p < i + 1 + k) ↔ (i ≤ p ∧ p < i + (k + 1)) := by omega
      simp only [this]

theorem overSupport_spec (f : Nat → K → Res K) (h : Nat → K → K) (s e : ℤ) (flux : List K)
    (hb : s ≤ e → 0 ≤ s ∧ e < flux.length) (hf : ∀ j y, j < flux.length → f j y = .ok (h j y)) :
    ∃ flux', overSupport f s e flux = .ok flux' ∧ flux'.length = flux.length ∧
      ∀ p : Nat, flux'[p]? = (flux[p]?).map fun y => if s ≤ p ∧ (p : ℤ) ≤ e then h p y else y := by
  unfold overSupport
  by_cases hc : s > e
  · rw [if_pos hc]
    refine ⟨flux, rfl, rfl, ?_⟩
    intro p
    have : ¬ (s ≤ p ∧ (p : ℤ) ≤ e) := by omega
    simp only [if_neg this, Option.map_id']
  · rw [if_neg hc]
    obtain ⟨h0, h1⟩ := hb (not_lt.1 hc)
    rw [if_neg (by omega)]
    obtain ⟨flux', h2, h3, h4⟩ := addRange_spec f h (e - s + 1).toNat s.toNat flux (by omega) (fun j y _ hj => hf j y (by omega))
    refine ⟨flux', h2, h3, ?_⟩
    intro p
    rw [h4]
    congr 1
    funext y
    have : (s.toNat ≤ p ∧ p < s.toNat + (e - s + 1).toNat) ↔ (s ≤ p ∧ (p : ℤ) ≤ e) := by omega
    simp only [this]

/-- What the loops on the supports read of an element: its supports are in the spectrum. -/
theorem support_bounds {axis : List K} (hs : SAxis.Increasing axis) (hne : axis ≠ []) {lr : Range K} {lines : List (LineGeom K)} {e : Elt}
    (he : prepareSupport axis lr lines = .ok e) {k : Nat} (hk : e.In k) (h : e.sup.s k ≤ e.sup.e k) :
    0 ≤ e.sup.s k ∧ e.sup.e k < axis.length := by
  obtain ⟨e', h1, h2, h3, g, hg⟩ := C71_groups axis hs hne lr lines
  rw [he] at h1
  cases h1
  have hgk : g k = k := by
    by_contra hne; have := hg.empty k hk hne; omega
  have key : ∀ p, Covers e.sup.s e.sup.e k p → 0 ≤ p ∧ p < axis.length := by
    intro p hp
    have := (hg.union k hk p).1 (by rw [hgk]; exact hp)
    obtain ⟨l, hl, _, h4, h5⟩ := this
    have hll : l < lines.length := by rw [← h2]; exact hl.1
    have h6 := h3 l lines[l] (List.getElem?_eq_getElem hll)
    obtain ⟨t, ht, hin⟩ := C71_theoretical axis hs hne lr lines[l]
    rw [ht] at h6
    simp only [Res.ok.injEq] at h6
    have := hin (by rw [h6]; exact hl.2)
    rw [h6] at this
    simp only at h4 h5
    omega
  exact ⟨(key _ ⟨le_refl _, h⟩).1, (key _ ⟨h, le_refl _⟩).2⟩

/-- A line asked for by the caller (`none`: all) belongs to the group of line `k`. -/
def Asked (g : Nat → Nat) : Option Nat → Nat → Prop
  | none, _ => True
  | some l, k => g k = g l

/-- The supports kept by the test on the line asked for. -/
def Sel (e : Elt) : Option Nat → Nat → Prop
  | none, _ => True
  | some l, r => e.sup.act l r = true

/-- The model of the lines active on support `r`, at sample `p`. -/
def supModel (e : Elt) (em : Bool) (fl : Nat → LineFlux K) (axis cont : List K) (r p : Nat) : K :=
  match axis[p]?, cont[p]? with
  | some x, some c => modelAt e em fl x c r
  | _, _ => 0

/-- What `addToSpectrumModel` adds, support by support. -/
theorem addToModel_raw (axis : List K) (e : Elt) (ho : e.outside = false)
    (hb : ∀ k, e.In k → e.sup.s k ≤ e.sup.e k → 0 ≤ e.sup.s k ∧ e.sup.e k < axis.length) (em : Bool) (fl : Nat → LineFlux K)
    (line : Option Nat) (cont flux : List K) (hc : cont.length = axis.length) (hf : flux.length = axis.length) :
    ∃ flux', addToModel e em fl line axis cont flux = .ok flux' ∧ flux'.length = flux.length ∧
      ∀ (p : Nat), flux'[p]? = (flux[p]?).map fun y => y + ∑ r ∈ Finset.range e.n,
        if e.out r = false ∧ Sel e line r ∧ Covers e.sup.s e.sup.e r p then supModel e em fl axis cont r p else 0 := by
  unfold addToModel
  rw [if_neg (by rw [ho]; exact Bool.false_ne_true)]
  -- the value of the model at sample p for the support of line r
  let M := supModel e em fl axis cont
  let sel : Nat → Prop := Sel e line
  obtain ⟨flux', h4, h5, h6⟩ := Res.foldN_inv (fun m (s : List K) => s.length = flux.length ∧
      ∀ (p : Nat), s[p]? = (flux[p]?).map fun y => y + ∑ r ∈ Finset.range m,
        if e.out r = false ∧ sel r ∧ Covers e.sup.s e.sup.e r p then M r p else 0) e.n 0 flux
    ⟨rfl, by intro p; simp⟩
    (f := fun index flux =>
      if (e.theo index).out then .ok flux
      else if skipSup e line index then .ok flux
      else overSupport (fun i y => Res.at_ axis i >>= fun x => Res.at_ cont i >>= fun c =>
          .ok (y + modelAt e em fl x c index)) (e.sup.s index) (e.sup.e index) flux)
    (by
      rintro m s _ hm ⟨hl, hp⟩
      rw [Nat.zero_add] at hm
      have skip : ¬ (e.out m = false ∧ sel m) → (s.length = flux.length ∧
          ∀ (p : Nat), s[p]? = (flux[p]?).map fun y => y + ∑ r ∈ Finset.range (m + 1),
            if e.out r = false ∧ sel r ∧ Covers e.sup.s e.sup.e r p then M r p else 0) := by
        intro hn
        refine ⟨hl, ?_⟩
        intro p
        rw [hp]
        congr 1
        funext y
        rw [Finset.sum_range_succ, if_neg (fun h => hn ⟨h.1, h.2.1⟩), add_zero]
      by_cases c1 : (e.theo m).out = true
      · rw [if_pos c1]
        exact ⟨s, rfl, skip (by rintro ⟨h, _⟩; unfold Elt.out at h; rw [c1] at h; cases h)⟩
      · rw [if_neg c1]
        by_cases c2 : skipSup e line m = true
        · rw [if_pos c2]
          refine ⟨s, rfl, skip ?_⟩
          rintro ⟨_, h⟩
          cases line with
          | none => cases c2
          | some l => simp only [sel, Sel] at h; simp only [skipSup, h] at c2; cases c2
        · rw [if_neg c2]
          have hin : e.In m := ⟨hm, by unfold Elt.out; simpa using c1⟩
          have hsel : sel m := by
            cases line with
            | none => trivial
            | some l => simpa [sel, Sel, skipSup] using c2
          obtain ⟨s', q1, q2, q3⟩ := overSupport_spec (fun i y => Res.at_ axis i >>= fun x => Res.at_ cont i >>= fun c =>
            .ok (y + modelAt e em fl x c m)) (fun i y => y + M m i) (e.sup.s m) (e.sup.e m) s
            (fun h => by rw [hl, hf]; exact hb m hin h)
            (by
              intro j y hj
              rw [hl, hf] at hj
              rw [Res.at_of_lt hj, Res.bind_ok, Res.at_of_lt (show j < cont.length by omega), Res.bind_ok]
              simp only [M, supModel, List.getElem?_eq_getElem hj, List.getElem?_eq_getElem (show j < cont.length by omega)])
          refine ⟨s', q1, by rw [q2, hl], ?_⟩
          intro p
          rw [q3, hp, Option.map_map]
          congr 1
          funext y
          simp only [Function.comp]
          rw [Finset.sum_range_succ]
          by_cases c3 : e.sup.s m ≤ p ∧ (p : ℤ) ≤ e.sup.e m
          · rw [if_pos c3, if_pos ⟨hin.2, hsel, c3⟩, add_assoc]
          · rw [if_neg c3, if_neg (fun h => c3 h.2.2), add_zero])
  rw [Nat.zero_add] at h6
  exact ⟨flux', h4, h5, h6⟩

/-- **C72, model.** `addToSpectrumModel` adds to each sample, once for each line in range whose group covers that sample (and
belongs to the line asked for, if any), the flux of that line: its amplitude times its profile, times minus the
continuum for absorption lines, and nothing if the amplitude is negative or undefined. Other samples are unchanged. -/
theorem C72_add_model (axis : List K) (hs : SAxis.Increasing axis) (hne : axis ≠ []) (lr : Range K) (lines : List (LineGeom K)) (e : Elt)
    (he : prepareSupport axis lr lines = .ok e) (em : Bool) (fl : Nat → LineFlux K) (line : Option Nat) (hline : ∀ l, line = some l → e.In l)
    (cont flux : List K) (hc : cont.length = axis.length) (hf : flux.length = axis.length) :
    ∃ g, Grouped e.n e.out (fun i => (e.theo i).s) (fun i => (e.theo i).e) e.sup g ∧
    ∃ flux', addToModel e em fl line axis cont flux = .ok flux' ∧ flux'.length = flux.length ∧
      ∀ (p : Nat) x c y, axis[p]? = some x → cont[p]? = some c → flux[p]? = some y →
        flux'[p]? = some (y + ∑ k ∈ Finset.range e.n,
          if e.out k = false ∧ Asked g line k ∧ Covers e.sup.s e.sup.e (g k) p then contrib em (fl k) x c else 0) := by
  obtain ⟨e', h1, h2, h3, g, hg⟩ := C71_groups axis hs hne lr lines
  rw [he] at h1
  cases h1
  refine ⟨g, hg, ?_⟩
  unfold addToModel
  by_cases ho : e.outside = true
  · rw [if_pos ho]
    refine ⟨flux, rfl, rfl, ?_⟩
    intro p x c y _ _ hy
    rw [hy, Finset.sum_eq_zero, add_zero]
    intro k hk
    rw [if_neg]
    rintro ⟨h4, _⟩
    unfold Elt.outside at ho
    rw [List.all_eq_true] at ho
    have := ho k (List.mem_range.2 (Finset.mem_range.1 hk))
    unfold Elt.out at h4
    rw [h4] at this; cases this
  · rw [if_neg ho]
    have ho' : e.outside = false := by simpa using ho
    obtain ⟨flux', h4, h5, h6⟩ := addToModel_raw axis e ho' (fun k hk h => support_bounds hs hne he hk h) em fl line cont flux hc hf
    unfold addToModel at h4
    rw [if_neg ho] at h4
    let M := supModel e em fl axis cont
    let sel : Nat → Prop := Sel e line
    refine ⟨flux', h4, h5, ?_⟩
    intro p x c y hx hc' hy
    rw [h6, hy]
    simp only [Option.map_some, Option.some.injEq, add_right_inj]
    have hM : ∀ r, M r p = ∑ k ∈ Finset.range e.n, if e.out k = false ∧ e.sup.act r k = true then contrib em (fl k) x c else 0 := by
      intro r
      simp only [M, supModel, hx, hc']
      exact modelAt_eq e em fl x c r ho'
    change (∑ r ∈ Finset.range e.n, if e.out r = false ∧ sel r ∧ Covers e.sup.s e.sup.e r p then M r p else 0) = _
    simp only [hM]
    have step1 : ∀ r ∈ Finset.range e.n,
        (if e.out r = false ∧ sel r ∧ Covers e.sup.s e.sup.e r p then
          ∑ k ∈ Finset.range e.n, (if e.out k = false ∧ e.sup.act r k = true then contrib em (fl k) x c else 0) else 0) =
        ∑ k ∈ Finset.range e.n, (if r = g k then (if e.out k = false ∧ Asked g line k ∧ Covers e.sup.s e.sup.e (g k) p then
          contrib em (fl k) x c else 0) else 0) := by
      intro r hr
      have hrn := Finset.mem_range.1 hr
      by_cases c1 : e.out r = false ∧ sel r ∧ Covers e.sup.s e.sup.e r p
      · rw [if_pos c1]
        have hin : e.In r := ⟨hrn, c1.1⟩
        have hgr : g r = r := by
          by_contra hne
          have := hg.empty r hin hne
          obtain ⟨_, _, h7, h8⟩ := c1
          omega
        apply Finset.sum_congr rfl
        intro k hk
        by_cases c2 : e.out k = false
        · have hkin : e.In k := ⟨Finset.mem_range.1 hk, c2⟩
          have hact := hg.active r k hin hkin
          rw [hgr] at hact
          by_cases c3 : g k = r
          · rw [if_pos ⟨c2, hact.2 c3⟩, if_pos c3.symm, if_pos]
            refine ⟨c2, ?_, by rw [c3]; exact c1.2.2⟩
            cases line with
            | none => trivial
            | some l =>
              have hl := hline l rfl
              have h7 := hg.activeR r l hin hl
              rw [hgr] at h7
              exact c3.trans (h7.1 c1.2.1).symm
          · rw [if_neg (fun h => c3 (hact.1 h.2)), if_neg (fun h => c3 h.symm)]
        · rw [if_neg (fun h => c2 h.1)]
          split
          · rw [if_neg (fun h => c2 h.1)]
          · rfl
      · rw [if_neg c1, Finset.sum_eq_zero]
        intro k hk
        split
        · rename_i hrk
          rw [if_neg]
          rintro ⟨h7, h8, h9⟩
          have hkin : e.In k := ⟨Finset.mem_range.1 hk, h7⟩
          have hrep := (hg.rep k hkin)
          refine c1 ⟨by rw [hrk]; exact hrep.1.2, ?_, by rw [hrk]; exact h9⟩
          cases line with
          | none => trivial
          | some l =>
            have hl := hline l rfl
            have h10 := hg.activeR k l hkin hl
            simp only [sel, Sel, hrk]
            exact h10.2 h8.symm
        · rfl
    rw [Finset.sum_congr rfl step1, Finset.sum_comm]
    apply Finset.sum_congr rfl
    intro k hk
    by_cases c2 : e.out k = false
    · have hkin : e.In k := ⟨Finset.mem_range.1 hk, c2⟩
      rw [Finset.sum_ite_eq' (Finset.range e.n) (g k)]
      rw [if_pos (Finset.mem_range.2 (hg.rep k hkin).1.1)]
    · rw [if_neg (fun h => c2 h.1)]
      apply Finset.sum_eq_zero
      intro r _
      split <;> rfl

/-- **C72, initialisation.** `initSpectrumModel` sets to the continuum exactly the samples of the supports of the element (those of the
group of the line asked for, if any) and leaves the others. -/
theorem C72_init_model (axis : List K) (hs : SAxis.Increasing axis) (hne : axis ≠ []) (lr : Range K) (lines : List (LineGeom K)) (e : Elt)
    (he : prepareSupport axis lr lines = .ok e) (line : Option Nat) (hline : ∀ l, line = some l → e.In l)
    (cont flux : List K) (hc : cont.length = axis.length) (hf : flux.length = axis.length) :
    ∃ g, Grouped e.n e.out (fun i => (e.theo i).s) (fun i => (e.theo i).e) e.sup g ∧
    ∃ flux', initModel e line cont flux = .ok flux' ∧ flux'.length = flux.length ∧
      ∀ p : Nat, ((∃ k, e.In k ∧ Asked g line k ∧ Covers e.sup.s e.sup.e (g k) p) → flux'[p]? = cont[p]?) ∧
        (¬ (∃ k, e.In k ∧ Asked g line k ∧ Covers e.sup.s e.sup.e (g k) p) → flux'[p]? = flux[p]?) := by
  obtain ⟨e', h1, h2, h3, g, hg⟩ := C71_groups axis hs hne lr lines
  rw [he] at h1
  cases h1
  refine ⟨g, hg, ?_⟩
  unfold initModel
  by_cases ho : e.outside = true
  · rw [if_pos ho]
    refine ⟨flux, rfl, rfl, ?_⟩
    intro p
    refine ⟨?_, fun _ => rfl⟩
    rintro ⟨k, hk, _⟩
    unfold Elt.outside at ho
    rw [List.all_eq_true] at ho
    have := ho k (List.mem_range.2 hk.1)
    have h4 := hk.2
    unfold Elt.out at h4
    rw [h4] at this; cases this
  · rw [if_neg ho]
    let sel : Nat → Prop := Sel e line
    obtain ⟨flux', h4, h5, h6⟩ := Res.foldN_inv (fun m (s : List K) => s.length = flux.length ∧
        ∀ p : Nat, p < flux.length → ((∃ r, r < m ∧ e.out r = false ∧ sel r ∧ Covers e.sup.s e.sup.e r p) → s[p]? = cont[p]?) ∧
          (¬ (∃ r, r < m ∧ e.out r = false ∧ sel r ∧ Covers e.sup.s e.sup.e r p) → s[p]? = flux[p]?)) e.n 0 flux
      ⟨rfl, by
        intro p _
        refine ⟨?_, fun _ => rfl⟩
        rintro ⟨r, hr, _⟩; omega⟩
      (f := fun index flux =>
        if (e.theo index).out then .ok flux
        else if skipSup e line index then .ok flux
        else overSupport (fun i y => Res.at_ cont i) (e.sup.s index) (e.sup.e index) flux)
      (by
        rintro m s _ hm ⟨hl, hp⟩
        rw [Nat.zero_add] at hm
        have skip : ¬ (e.out m = false ∧ sel m) → (s.length = flux.length ∧
            ∀ p : Nat, p < flux.length → ((∃ r, r < m + 1 ∧ e.out r = false ∧ sel r ∧ Covers e.sup.s e.sup.e r p) → s[p]? = cont[p]?) ∧
              (¬ (∃ r, r < m + 1 ∧ e.out r = false ∧ sel r ∧ Covers e.sup.s e.sup.e r p) → s[p]? = flux[p]?)) := by
          intro hn
          refine ⟨hl, ?_⟩
          intro p hpl
          obtain ⟨p1, p2⟩ := hp p hpl
          refine ⟨?_, ?_⟩
          · rintro ⟨r, hr, h7, h8, h9⟩
            rcases Nat.lt_succ_iff_lt_or_eq.1 hr with h | rfl
            · exact p1 ⟨r, h, h7, h8, h9⟩
            · exact absurd ⟨h7, h8⟩ hn
          · intro h
            exact p2 (fun ⟨r, hr, h7⟩ => h ⟨r, by omega, h7⟩)
        by_cases c1 : (e.theo m).out = true
        · rw [if_pos c1]
          exact ⟨s, rfl, skip (by rintro ⟨h, _⟩; unfold Elt.out at h; rw [c1] at h; cases h)⟩
        · rw [if_neg c1]
          by_cases c2 : skipSup e line m = true
          · rw [if_pos c2]
            refine ⟨s, rfl, skip ?_⟩
            rintro ⟨_, h⟩
            cases line with
            | none => cases c2
            | some l => simp only [sel, Sel] at h; simp only [skipSup, h] at c2; cases c2
          · rw [if_neg c2]
            have hin : e.In m := ⟨hm, by unfold Elt.out; simpa using c1⟩
            have hsel : sel m := by
              cases line with
              | none => trivial
              | some l => simpa [sel, Sel, skipSup] using c2
            obtain ⟨s', q1, q2, q3⟩ := overSupport_spec (fun i y => Res.at_ cont i) (fun i y => (cont[i]?).getD y) (e.sup.s m) (e.sup.e m) s
              (fun h => by rw [hl, hf]; exact support_bounds hs hne he hin h)
              (by
                intro j y hj
                have hj' : j < cont.length := by omega
                rw [Res.at_of_lt hj', List.getElem?_eq_getElem hj']
                rfl)
            refine ⟨s', q1, by rw [q2, hl], ?_⟩
            intro p hpl
            obtain ⟨p1, p2⟩ := hp p hpl
            rw [q3]
            have hps : p < s.length := by omega
            have hpc : p < cont.length := by omega
            by_cases c3 : e.sup.s m ≤ p ∧ (p : ℤ) ≤ e.sup.e m
            · simp only [if_pos c3]
              refine ⟨fun _ => ?_, fun h => absurd ⟨m, by omega, hin.2, hsel, c3⟩ h⟩
              rw [List.getElem?_eq_getElem hps, List.getElem?_eq_getElem hpc]
              rfl
            · simp only [if_neg c3, Option.map_id']
              refine ⟨?_, ?_⟩
              · rintro ⟨r, hr, h7, h8, h9⟩
                rcases Nat.lt_succ_iff_lt_or_eq.1 hr with h | rfl
                · exact p1 ⟨r, h, h7, h8, h9⟩
                · exact absurd h9 c3
              · intro h
                exact p2 (fun ⟨r, hr, h7⟩ => h ⟨r, by omega, h7⟩))
    rw [Nat.zero_add] at h6
    refine ⟨flux', h4, h5, ?_⟩
    intro p
    have hequiv : (∃ r, r < e.n ∧ e.out r = false ∧ sel r ∧ Covers e.sup.s e.sup.e r p) ↔
        ∃ k, e.In k ∧ Asked g line k ∧ Covers e.sup.s e.sup.e (g k) p := by
      constructor
      · rintro ⟨r, hr, h7, h8, h9⟩
        have hin : e.In r := ⟨hr, h7⟩
        have hgr : g r = r := by
          by_contra hne
          have := hg.empty r hin hne
          obtain ⟨h10, h11⟩ := h9
          omega
        refine ⟨r, hin, ?_, by rw [hgr]; exact h9⟩
        cases line with
        | none => trivial
        | some l =>
          have hl := hline l rfl
          have h10 := hg.activeR r l hin hl
          rw [hgr] at h10
          change g r = g l
          rw [hgr, h10.1 h8]
      · rintro ⟨k, hk, h7, h8⟩
        have hrep := hg.rep k hk
        refine ⟨g k, hrep.1.1, hrep.1.2, ?_, h8⟩
        cases line with
        | none => trivial
        | some l =>
          have hl := hline l rfl
          exact (hg.activeR k l hk hl).2 (Eq.symm h7)
    by_cases hpl : p < flux.length
    · rw [← hequiv]; exact h6 p hpl
    · have n1 : flux'[p]? = none := List.getElem?_eq_none (by omega)
      have n2 : flux[p]? = none := List.getElem?_eq_none (by omega)
      have n3 : cont[p]? = none := List.getElem?_eq_none (by omega)
      rw [n1, n2, n3]
      exact ⟨fun _ => rfl, fun _ => rfl⟩

/-- Example for C72: an emission element with two overlapping lines (amplitudes 2 and 3, flat profiles) and a third one of undefined amplitude:
the model is 5 on the common support. -/
example : (prepareSupport ([0, 1, 2, 3, 4, 5, 6, 7, 8, 9, 10] : List ℚ) ⟨0, 10⟩ [⟨true, 3, 2⟩, ⟨true, 4, 2⟩, ⟨true, 8, 2⟩]).bind
    (fun e => addToModel (K := ℚ) e true (fun k => ⟨if k = 0 then some 2 else if k = 1 then some 3 else none, fun _ => 1⟩) none
      [0, 1, 2, 3, 4, 5, 6, 7, 8, 9, 10] [1, 1, 1, 1, 1, 1, 1, 1, 1, 1, 1] [0, 0, 0, 0, 0, 0, 0, 0, 0, 0, 0]) =
    .ok [0, 0, 5, 5, 5, 5, 0, 0, 0, 0, 0] := by decide +kernel

/-- The velocity derivative of line `k` at a sample of wavelength `x` and continuum `c` (nothing for an undefined amplitude). -/
def derivTerm (em : Bool) (amp : Nat → Option K) (dprof : Nat → K → K) (axis cont : List K) (k p : Nat) : K :=
  match amp k, axis[p]?, cont[p]? with
  | some a, some x, some c => if em then a * dprof k x else -(a * c * dprof k x)
  | _, _, _ => 0

/-- **C72, velocity derivative.** `addToSpectrumModelDerivVel` never fails on a prepared element; it adds, for each line in
range of an element of the type asked for, its amplitude times the derivative of its profile (times minus the continuum in
absorption) on the support kept by that line after the merge, and leaves everything else unchanged. -/
theorem C72_deriv_vel_partial (axis : List K) (hs : SAxis.Increasing axis) (hne : axis ≠ []) (lr : Range K) (lines : List (LineGeom K)) (e : Elt)
    (he : prepareSupport axis lr lines = .ok e) (em emLine : Bool) (amp : Nat → Option K) (dprof : Nat → K → K)
    (cont flux : List K) (hc : cont.length = axis.length) (hf : flux.length = axis.length) :
    ∃ flux', addDerivVel e em emLine amp dprof axis cont flux = .ok flux' ∧ flux'.length = flux.length ∧
      ∀ (p : Nat), flux'[p]? = (flux[p]?).map fun y => y + ∑ k ∈ Finset.range e.n,
        if emLine = em ∧ e.out k = false ∧ Covers e.sup.s e.sup.e k p then derivTerm em amp dprof axis cont k p else 0 := by
  have hb : ∀ k, e.In k → e.sup.s k ≤ e.sup.e k → 0 ≤ e.sup.s k ∧ e.sup.e k < axis.length :=
    fun k hk h => support_bounds hs hne he hk h
  unfold addDerivVel
  by_cases ho : e.outside = true
  · rw [if_pos ho]
    refine ⟨flux, rfl, rfl, ?_⟩
    intro p
    have hz : (∑ k ∈ Finset.range e.n, if emLine = em ∧ e.out k = false ∧ Covers e.sup.s e.sup.e k p then
        derivTerm em amp dprof axis cont k p else 0) = 0 := by
      apply Finset.sum_eq_zero
      intro k hk
      rw [if_neg]
      rintro ⟨_, h, _⟩
      have := List.all_eq_true.1 ho k (List.mem_range.2 (Finset.mem_range.1 hk))
      unfold Elt.out at h
      rw [h] at this
      cases this
    rw [hz]
    simp
  · rw [if_neg ho]
    obtain ⟨flux', h4, h5, h6⟩ := Res.foldN_inv (fun m (s : List K) => s.length = flux.length ∧
        ∀ (p : Nat), s[p]? = (flux[p]?).map fun y => y + ∑ k ∈ Finset.range m,
          if emLine = em ∧ e.out k = false ∧ Covers e.sup.s e.sup.e k p then derivTerm em amp dprof axis cont k p else 0) e.n 0 flux
      ⟨rfl, by intro p; simp⟩
      (f := fun index flux =>
        if (e.theo index).out then .ok flux
        else if emLine != em then .ok flux
        else match amp index with
          | none => .ok flux
          | some a =>
            overSupport (fun i y => Res.at_ axis i >>= fun x =>
              if em then .ok (y + a * dprof index x)
              else Res.at_ cont i >>= fun c => .ok (y + (-1) * a * c * dprof index x))
              (e.sup.s index) (e.sup.e index) flux)
      (by
        rintro m s _ hm ⟨hl, hp⟩
        rw [Nat.zero_add] at hm
        have skip : (∀ p : Nat, (if emLine = em ∧ e.out m = false ∧ Covers e.sup.s e.sup.e m p then
            derivTerm em amp dprof axis cont m p else 0) = 0) → (s.length = flux.length ∧
            ∀ (p : Nat), s[p]? = (flux[p]?).map fun y => y + ∑ k ∈ Finset.range (m + 1),
              if emLine = em ∧ e.out k = false ∧ Covers e.sup.s e.sup.e k p then derivTerm em amp dprof axis cont k p else 0) := by
          intro hn
          refine ⟨hl, ?_⟩
          intro p
          rw [hp]
          congr 1
          funext y
          rw [Finset.sum_range_succ, hn, add_zero]
        by_cases c1 : (e.theo m).out = true
        · rw [if_pos c1]
          refine ⟨s, rfl, skip ?_⟩
          intro p
          rw [if_neg]
          rintro ⟨_, h, _⟩
          unfold Elt.out at h
          rw [c1] at h
          cases h
        · rw [if_neg c1]
          by_cases c2 : (emLine != em) = true
          · rw [if_pos c2]
            refine ⟨s, rfl, skip ?_⟩
            intro p
            rw [if_neg]
            rintro ⟨h, _, _⟩
            subst h
            simp at c2
          · rw [if_neg c2]
            have hem : emLine = em := by simpa using c2
            have hin : e.In m := ⟨hm, by unfold Elt.out; simpa using c1⟩
            cases ha : amp m with
            | none =>
              refine ⟨s, rfl, skip ?_⟩
              intro p
              unfold derivTerm
              rw [ha]
              simp
            | some a =>
              obtain ⟨s', q1, q2, q3⟩ := overSupport_spec (fun i y => Res.at_ axis i >>= fun x =>
                  if em then .ok (y + a * dprof m x)
                  else Res.at_ cont i >>= fun c => .ok (y + (-1) * a * c * dprof m x))
                (fun i y => y + derivTerm em amp dprof axis cont m i) (e.sup.s m) (e.sup.e m) s
                (fun h => by rw [hl, hf]; exact hb m hin h)
                (by
                  intro j y hj
                  rw [hl, hf] at hj
                  have hj2 : j < cont.length := by omega
                  rw [Res.at_of_lt hj, Res.bind_ok, Res.at_of_lt hj2, Res.bind_ok]
                  simp only [derivTerm, ha, List.getElem?_eq_getElem hj, List.getElem?_eq_getElem hj2]
                  cases em
                  · simp only [Bool.false_eq_true, if_false, Res.ok.injEq]; ring
                  · simp)
              refine ⟨s', q1, by rw [q2, hl], ?_⟩
              intro p
              rw [q3, hp, Option.map_map]
              congr 1
              funext y
              simp only [Function.comp]
              rw [Finset.sum_range_succ]
              by_cases c3 : e.sup.s m ≤ p ∧ (p : ℤ) ≤ e.sup.e m
              · rw [if_pos c3, if_pos ⟨hem, hin.2, c3⟩, add_assoc]
              · rw [if_neg c3, if_neg (fun h => c3 h.2.2), add_zero])
    rw [Nat.zero_add] at h6
    exact ⟨flux', h4, h5, h6⟩

/-- Example for `C72_deriv_vel_partial`: an absorption element does not change the derivative for the emission velocity. -/
example : (prepareSupport ([0, 1, 2, 3, 4, 5, 6] : List ℚ) ⟨0, 6⟩ [⟨true, 3, 2⟩]).bind
    (fun e => (addDerivVel (K := ℚ) e false true (fun _ => some 1) (fun _ _ => 7) [0, 1, 2, 3, 4, 5, 6] [2, 2, 2, 2, 2, 2, 2] [0, 0, 0, 0, 0, 0, 0]).bind
      fun f1 => (addDerivVel (K := ℚ) e false false (fun _ => some 1) (fun _ _ => 7) [0, 1, 2, 3, 4, 5, 6] [2, 2, 2, 2, 2, 2, 2] [0, 0, 0, 0, 0, 0, 0]).bind
      fun f2 => .ok (f1, f2)) = .ok ([0, 0, 0, 0, 0, 0, 0], [0, 0, -14, -14, -14, 0, 0]) := by decide +kernel

/-- **C72, velocity derivative: the property fails.** Two emission lines overlap: both count in the flux model of their
common support, but `addToSpectrumModelDerivVel` uses the support of each line on its own, which is empty for the second line
after the merge: its derivative (here 10 at each sample) is missing from the derivative of the model. -/
theorem C72_deriv_vel_counterexample :
    ∃ e, prepareSupport ([0, 1, 2, 3, 4, 5, 6, 7, 8, 9, 10] : List ℚ) ⟨0, 10⟩ [⟨true, 3, 2⟩, ⟨true, 4, 2⟩] = .ok e ∧
      addToModel (K := ℚ) e true (fun k => ⟨some 1, fun _ => if k = 0 then 1 else 10⟩) none
        [0, 1, 2, 3, 4, 5, 6, 7, 8, 9, 10] [1, 1, 1, 1, 1, 1, 1, 1, 1, 1, 1] [0, 0, 0, 0, 0, 0, 0, 0, 0, 0, 0] =
        .ok [0, 0, 11, 11, 11, 11, 0, 0, 0, 0, 0] ∧
      addDerivVel (K := ℚ) e true true (fun _ => some 1) (fun k _ => if k = 0 then 1 else 10)
        [0, 1, 2, 3, 4, 5, 6, 7, 8, 9, 10] [1, 1, 1, 1, 1, 1, 1, 1, 1, 1, 1] [0, 0, 0, 0, 0, 0, 0, 0, 0, 0, 0] =
        .ok [0, 0, 1, 1, 1, 1, 0, 0, 0, 0, 0] := by
  have h : ∀ r : Res Elt, (match r with
      | .ok e => decide (addToModel (K := ℚ) e true (fun k => ⟨some 1, fun _ => if k = 0 then 1 else 10⟩) none
        [0, 1, 2, 3, 4, 5, 6, 7, 8, 9, 10] [1, 1, 1, 1, 1, 1, 1, 1, 1, 1, 1] [0, 0, 0, 0, 0, 0, 0, 0, 0, 0, 0] =
        .ok [0, 0, 11, 11, 11, 11, 0, 0, 0, 0, 0]) && decide (addDerivVel (K := ℚ) e true true (fun _ => some 1) (fun k _ => if k = 0 then 1 else 10)
        [0, 1, 2, 3, 4, 5, 6, 7, 8, 9, 10] [1, 1, 1, 1, 1, 1, 1, 1, 1, 1, 1] [0, 0, 0, 0, 0, 0, 0, 0, 0, 0, 0] =
        .ok [0, 0, 1, 1, 1, 1, 0, 0, 0, 0, 0])
      | _ => false) = true → ∃ e, r = .ok e ∧
      addToModel (K := ℚ) e true (fun k => ⟨some 1, fun _ => if k = 0 then 1 else 10⟩) none
        [0, 1, 2, 3, 4, 5, 6, 7, 8, 9, 10] [1, 1, 1, 1, 1, 1, 1, 1, 1, 1, 1] [0, 0, 0, 0, 0, 0, 0, 0, 0, 0, 0] =
        .ok [0, 0, 11, 11, 11, 11, 0, 0, 0, 0, 0] ∧
      addDerivVel (K := ℚ) e true true (fun _ => some 1) (fun k _ => if k = 0 then 1 else 10)
        [0, 1, 2, 3, 4, 5, 6, 7, 8, 9, 10] [1, 1, 1, 1, 1, 1, 1, 1, 1, 1, 1] [0, 0, 0, 0, 0, 0, 0, 0, 0, 0, 0] =
        .ok [0, 0, 1, 1, 1, 1, 0, 0, 0, 0, 0] := by
    rintro r hr
    cases r with
    | ok e => simp only [Bool.and_eq_true, decide_eq_true_eq] at hr; exact ⟨e, rfl, hr⟩
    | throw => cases hr
    | ub => cases hr
  apply h
  decide +kernel

end EltSup
end Amazed
