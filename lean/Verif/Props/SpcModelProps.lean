import Verif.Model.SpcModel
import Verif.Props.EltModelProps
import Verif.Props.EltListProps
import Verif.Props.EltListOverlap
import Mathlib.Algebra.BigOperators.Group.Finset.Basic

set_option linter.unusedVariables false
set_option linter.unusedSectionVars false

/-! # The flux model of one spectrum (C81) -/

namespace Amazed
namespace SpcModel
open EltSup EltList

variable {K : Type} [Field K] [LinearOrder K] [IsStrictOrderedRing K] {G : Type} [LinearOrder G]

/-- The supports of the elements are those prepared on the spectral axis. -/
def Prepared (axis : List K) (es : List (El K G)) : Prop := ∀ e ∈ es, ∃ lr lines, prepareSupport axis lr lines = .ok e.base.sup

/-- `g` groups the lines of the element: `g k` is the line that holds the support of the group of line `k`. -/
def GroupOf (e : El K G) (g : Nat → Nat) : Prop :=
  Grouped e.base.sup.n e.base.sup.out (fun i => (e.base.sup.theo i).s) (fun i => (e.base.sup.theo i).e) e.base.sup.sup g

open Classical in
/-- The sum of the fluxes of the lines in range of the element whose group covers sample `p`, of wavelength `x` and continuum `c`. -/
noncomputable def lineSum (e : El K G) (g : Nat → Nat) (p : Nat) (x c : K) : K :=
  ∑ k ∈ Finset.range e.base.sup.n,
    if e.base.sup.out k = false ∧ Covers e.base.sup.sup.s e.base.sup.sup.e (g k) p then contrib e.emission (e.fl k) x c else 0

/-- `f p` is the flux of the lines of the element at sample `p`. -/
def IsFlux (axis cont : List K) (e : El K G) (f : Nat → K) : Prop :=
  ∃ g, GroupOf e g ∧ ∀ (p : Nat) x c, axis[p]? = some x → cont[p]? = some c → f p = lineSum e g p x c

theorem group_unique {n : Nat} {out : Nat → Bool} {s0 e0 : Nat → ℤ} {t : Sup} {g g' : Nat → Nat} (h : Grouped n out s0 e0 t g) (h' : Grouped n out s0 e0 t g')
    (k : Nat) (hk : EltSup.In n out k) : g' k = g k := by
  have h1 : g' (g k) = g k := by
    by_contra hc
    have := h'.empty (g k) (h.rep k hk).1 hc
    have := h.holder k hk
    omega
  have h2 := (h.active k k hk hk).2 rfl
  have h3 := h'.active (g k) k (h.rep k hk).1 hk
  rw [h1] at h3
  exact h3.1 h2

theorem lineSum_unique (e : El K G) {g g' : Nat → Nat} (h : GroupOf e g) (h' : GroupOf e g') (p : Nat) (x c : K) : lineSum e g' p x c = lineSum e g p x c := by
  unfold lineSum
  apply Finset.sum_congr rfl
  intro k hk
  by_cases ho : e.base.sup.out k = false
  · rw [group_unique h h' k ⟨Finset.mem_range.1 hk, ho⟩]
  · rw [if_neg (fun q => ho q.1), if_neg (fun q => ho q.1)]

/-- An element whose group covers a sample covers it. -/
theorem covered_of_group {e : El K G} {g : Nat → Nat} (h : GroupOf e g) {k : Nat} (hk : e.base.sup.In k) {p : Nat}
    (hc : Covers e.base.sup.sup.s e.base.sup.sup.e (g k) p) : Covered e.base p :=
  ⟨g k, (h.rep k hk).1.1, (h.rep k hk).1.2, hc.1, hc.2⟩

theorem lineSum_zero (e : El K G) {g : Nat → Nat} (h : GroupOf e g) (p : Nat) (x c : K) (hn : ¬ Covered e.base p) : lineSum e g p x c = 0 := by
  unfold lineSum
  apply Finset.sum_eq_zero
  intro k hk
  rw [if_neg]
  rintro ⟨h1, h2⟩
  exact hn (covered_of_group h ⟨Finset.mem_range.1 hk, h1⟩ h2)

/-- The flux of an element exists. -/
theorem flux_exists (axis : List K) (hs : SAxis.Increasing axis) (hne : axis ≠ []) (cont : List K) (e : El K G)
    (he : ∃ lr lines, prepareSupport axis lr lines = .ok e.base.sup) : ∃ f, IsFlux axis cont e f := by
  obtain ⟨lr, lines, he⟩ := he
  obtain ⟨e', h1, _, _, g, hg⟩ := C71_groups axis hs hne lr lines
  rw [he] at h1
  cases h1
  refine ⟨fun p => match axis[p]?, cont[p]? with
    | some x, some c => lineSum e g p x c
    | _, _ => 0, g, hg, ?_⟩
  intro p x c hx hc
  simp only [hx, hc]

/-- Adding the lines of a prepared element. -/
theorem elt_add (axis : List K) (hs : SAxis.Increasing axis) (hne : axis ≠ []) (cont : List K) (hc : cont.length = axis.length) (e : El K G)
    (he : ∃ lr lines, prepareSupport axis lr lines = .ok e.base.sup) (f : Nat → K) (hf : IsFlux axis cont e f) (flux : List K)
    (hl : flux.length = axis.length) :
    ∃ flux', addToModel e.base.sup e.emission e.fl none axis cont flux = .ok flux' ∧ flux'.length = axis.length ∧
      ∀ (p : Nat), flux'[p]? = (flux[p]?).map fun y => y + f p := by
  obtain ⟨lr, lines, he⟩ := he
  obtain ⟨g, hg, flux', h1, h2, h3⟩ := C72_add_model axis hs hne lr lines e.base.sup he e.emission e.fl none (by simp) cont flux hc hl
  obtain ⟨g', hg', hfs⟩ := hf
  refine ⟨flux', h1, h2.trans hl, fun p => ?_⟩
  by_cases hp : p < axis.length
  · rw [h3 p axis[p] cont[p] flux[p] (List.getElem?_eq_getElem hp) (List.getElem?_eq_getElem (by omega)) (List.getElem?_eq_getElem (by omega)),
      List.getElem?_eq_getElem (by omega), Option.map_some, hfs p axis[p] cont[p] (List.getElem?_eq_getElem hp) (List.getElem?_eq_getElem (by omega)),
      ← lineSum_unique e hg' hg]
    congr 2
    unfold lineSum
    apply Finset.sum_congr rfl
    intro k _
    classical
    by_cases q : e.base.sup.out k = false ∧ Covers e.base.sup.sup.s e.base.sup.sup.e (g k) p
    · rw [if_pos q, if_pos ⟨q.1, trivial, q.2⟩]
    · rw [if_neg q, if_neg fun h => q ⟨h.1, h.2.2⟩]
  · rw [List.getElem?_eq_none (by omega), List.getElem?_eq_none (by omega)]; rfl

theorem flux_zero {axis cont : List K} {e : El K G} {f : Nat → K} (hc : cont.length = axis.length) (hf : IsFlux axis cont e f) (p : Nat) (hp : p < axis.length)
    (hn : ¬ Covered e.base p) : f p = 0 := by
  obtain ⟨g, hg, h⟩ := hf
  rw [h p axis[p] cont[p] (List.getElem?_eq_getElem hp) (List.getElem?_eq_getElem (by omega))]
  exact lineSum_zero e hg p _ _ hn

/-- Setting the supports of a prepared element to the continuum. -/
theorem elt_init (axis : List K) (hs : SAxis.Increasing axis) (hne : axis ≠ []) (cont : List K) (hc : cont.length = axis.length) (e : El K G)
    (he : ∃ lr lines, prepareSupport axis lr lines = .ok e.base.sup) (flux : List K) (hl : flux.length = axis.length) :
    ∃ flux', initModel e.base.sup none cont flux = .ok flux' ∧ flux'.length = axis.length ∧
      ∀ p : Nat, (Covered e.base p → flux'[p]? = cont[p]?) ∧ (¬ Covered e.base p → flux'[p]? = flux[p]?) := by
  obtain ⟨lr, lines, he⟩ := he
  obtain ⟨g, hg, flux', h1, h2, h3⟩ := C72_init_model axis hs hne lr lines e.base.sup he none (by simp) cont flux hc hl
  refine ⟨flux', h1, h2.trans hl, fun p => ⟨fun h => (h3 p).1 ?_, fun h => (h3 p).2 ?_⟩⟩
  · obtain ⟨k, a, b, c, d⟩ := h
    have hk : EltSup.In e.base.sup.n e.base.sup.out k := ⟨a, b⟩
    have hgk : g k = k := by
      by_contra hne
      have := hg.empty k hk hne
      omega
    exact ⟨k, hk, trivial, by rw [hgk]; exact ⟨c, d⟩⟩
  · rintro ⟨k, hk, _, hcov⟩
    exact h (covered_of_group hg hk hcov)

theorem covered_bounds {axis : List K} (hs : SAxis.Increasing axis) (hne : axis ≠ []) {es : List (El K G)} (hp : Prepared axis es) :
    ∀ e ∈ es.map (·.base), ∀ p, Covered e p → 0 ≤ p ∧ p < axis.length := by
  intro b hb p ⟨k, h1, h2, h3, h4⟩
  obtain ⟨e, he, rfl⟩ := List.mem_map.1 hb
  obtain ⟨lr, lines, hpr⟩ := hp e he
  have := support_bounds hs hne hpr (k := k) ⟨h1, h2⟩ (by omega)
  omega

/-- **C81, full model.** The model of a spectrum is the continuum, plus the amplitude offsets if they are enabled, plus the flux of the lines of the
elements of the type asked for; it does not depend on the previous model, and the other axes are unchanged. -/
theorem C81_refresh (undef : G) (es : List (El K G)) (filter : Amp.LType) (s : St K) (hs : SAxis.Increasing s.axis) (hne : s.axis ≠ [])
    (hp : Prepared s.axis es) (hc : s.cont.length = s.axis.length) (F : El K G → Nat → K) (hF : ∀ e ∈ es, IsFlux s.axis s.cont e (F e)) :
    ∃ m0 m, (if s.offsets then addOffsets undef (es.map (·.base)) s.axis s.cont [] .all = .ok m0 else m0 = s.cont) ∧ m0.length = s.axis.length ∧
      refresh undef es filter s = .ok { s with model := m } ∧ m.length = s.axis.length ∧
      ∀ (p : Nat), m[p]? = (m0[p]?).map fun y => y + ((es.filter fun e => decide (filter = .all) || decide (filter = e.base.type)).map fun e => F e p).sum := by
  have h0 : ∃ m0, (if s.offsets then addOffsets undef (es.map (·.base)) s.axis s.cont [] .all else .ok s.cont) = .ok m0 ∧ m0.length = s.axis.length ∧
      (if s.offsets then addOffsets undef (es.map (·.base)) s.axis s.cont [] .all = .ok m0 else m0 = s.cont) := by
    by_cases ho : s.offsets = true
    · rw [if_pos ho]
      obtain ⟨r, h1, h2, _⟩ := C74_offset undef (es.map (·.base)) s.axis s.cont [] .all hc (by simp) (covered_bounds hs hne hp)
      exact ⟨r, h1, h2.trans hc, by rw [if_pos ho]; exact h1⟩
    · rw [if_neg ho]
      exact ⟨s.cont, rfl, hc, by rw [if_neg ho]⟩
  obtain ⟨m0, a1, a2, a3⟩ := h0
  obtain ⟨m, b1, b2, b3⟩ := foldL_inv (fun (pre : List (El K G)) (m : List K) => m.length = s.axis.length ∧
      ∀ (p : Nat), m[p]? = (m0[p]?).map fun y => y + ((pre.filter fun e => decide (filter = .all) || decide (filter = e.base.type)).map fun e => F e p).sum)
    es [] m0 ⟨a2, by intro p; simp⟩
    (f := fun (e : El K G) flux => if typeKept filter e.base.type then addElt s none e flux else .ok flux)
    (by
      intro pre e m he ⟨q1, q2⟩
      by_cases hk : typeKept filter e.base.type = true
      · obtain ⟨m', r1, r2, r3⟩ := elt_add s.axis hs hne s.cont hc e (hp e he) (F e) (hF e he) m q1
        refine ⟨m', by rw [if_pos hk]; exact r1, r2, fun p => ?_⟩
        rw [r3, q2, Option.map_map]
        unfold typeKept at hk
        rw [List.filter_append, List.filter_cons_of_pos (by simpa using hk)]
        simp [Function.comp_def, add_assoc]
      · refine ⟨m, by rw [if_neg hk], q1, fun p => ?_⟩
        rw [q2]
        unfold typeKept at hk
        rw [List.filter_append, List.filter_cons_of_neg (by simpa using hk)]
        simp)
  refine ⟨m0, m, a3, a2, ?_, b2, by simpa using b3⟩
  unfold refresh
  rw [a1, Res.bind_ok, b1, Res.bind_ok]

/-- The elements of a list of indexes. -/
def pick (es : List (El K G)) (idx : List Nat) : List (El K G) := idx.filterMap fun i => es[i]?

theorem coveredBy_iff (es : List (El K G)) (idx : List Nat) (p : ℤ) : CoveredBy (es.map (·.base)) idx p ↔ ∃ e ∈ pick es idx, Covered e.base p := by
  unfold CoveredBy pick
  constructor
  · rintro ⟨i, hi, b, hb, hcv⟩
    rw [List.getElem?_map] at hb
    obtain ⟨e, he, rfl⟩ := Option.map_eq_some_iff.1 hb
    exact ⟨e, List.mem_filterMap.2 ⟨i, hi, he⟩, hcv⟩
  · rintro ⟨e, he, hcv⟩
    obtain ⟨i, hi, he⟩ := List.mem_filterMap.1 he
    exact ⟨i, hi, e.base, by rw [List.getElem?_map, he]; rfl, hcv⟩

theorem pick_append (es : List (El K G)) (a b : List Nat) : pick es (a ++ b) = pick es a ++ pick es b := List.filterMap_append

theorem pick_single (es : List (El K G)) {i : Nat} (hi : i < es.length) : pick es [i] = [es[i]] := by
  unfold pick
  simp [List.getElem?_eq_getElem hi]

/-- **C81, partial refresh.** Refreshing some elements sets the samples they cover to the continuum plus the flux of the lines of these elements, and
leaves the other samples as they were. -/
theorem C81_refresh_under (es : List (El K G)) (idx : List Nat) (s : St K) (hs : SAxis.Increasing s.axis) (hne : s.axis ≠ [])
    (hp : Prepared s.axis es) (hc : s.cont.length = s.axis.length) (hm : s.model.length = s.axis.length) (hi : ∀ i ∈ idx, i < es.length)
    (F : El K G → Nat → K) (hF : ∀ e ∈ es, IsFlux s.axis s.cont e (F e)) :
    ∃ m, refreshUnder es idx none s = .ok { s with model := m } ∧ m.length = s.axis.length ∧
      ∀ (p : Nat), ((∃ e ∈ pick es idx, Covered e.base p) → m[p]? = (s.cont[p]?).map fun c => c + ((pick es idx).map fun e => F e p).sum) ∧
        ((¬ ∃ e ∈ pick es idx, Covered e.base p) → m[p]? = s.model[p]?) := by
  obtain ⟨m1, b1, b2, b3⟩ := foldL_inv (fun (pre : List Nat) (m : List K) => m.length = s.axis.length ∧
      ∀ (p : Nat), ((∃ e ∈ pick es pre, Covered e.base p) → m[p]? = s.cont[p]?) ∧ ((¬ ∃ e ∈ pick es pre, Covered e.base p) → m[p]? = s.model[p]?))
    idx [] s.model ⟨hm, by intro p; simp [pick]⟩
    (f := fun i flux => Res.at_ es i >>= fun e => EltSup.initModel e.base.sup none s.cont flux)
    (by
      intro pre i m him ⟨q1, q2⟩
      have hil := hi i him
      obtain ⟨m', r1, r2, r3⟩ := elt_init s.axis hs hne s.cont hc es[i] (hp _ (List.getElem_mem _)) m q1
      refine ⟨m', by rw [Res.at_of_lt hil, Res.bind_ok]; exact r1, r2, fun p => ?_⟩
      rw [pick_append, pick_single es hil]
      by_cases hcv : Covered es[i].base p
      · refine ⟨fun _ => (r3 p).1 hcv, fun hn => absurd ⟨es[i], by simp, hcv⟩ hn⟩
      · rw [(r3 p).2 hcv]
        constructor
        · rintro ⟨e, he, hce⟩
          rcases List.mem_append.1 he with he | he
          · exact (q2 p).1 ⟨e, he, hce⟩
          · rw [List.mem_singleton.1 he] at hce; exact absurd hce hcv
        · intro hn
          exact (q2 p).2 fun ⟨e, he, hce⟩ => hn ⟨e, List.mem_append_left _ he, hce⟩)
  obtain ⟨m, c1, c2, c3⟩ := foldL_inv (fun (pre : List Nat) (m : List K) => m.length = s.axis.length ∧
      ∀ (p : Nat), m[p]? = (m1[p]?).map fun y => y + ((pick es pre).map fun e => F e p).sum)
    idx [] m1 ⟨b2, by intro p; simp [pick]⟩
    (f := fun i flux => Res.at_ es i >>= fun e => addElt s none e flux)
    (by
      intro pre i m him ⟨q1, q2⟩
      have hil := hi i him
      obtain ⟨m', r1, r2, r3⟩ := elt_add s.axis hs hne s.cont hc es[i] (hp _ (List.getElem_mem _)) (F es[i]) (hF _ (List.getElem_mem _)) m q1
      refine ⟨m', by rw [Res.at_of_lt hil, Res.bind_ok]; exact r1, r2, fun p => ?_⟩
      rw [r3, q2, Option.map_map, pick_append, pick_single es hil]
      simp [Function.comp_def, add_assoc])
  rw [List.nil_append] at b3 c3
  refine ⟨m, ?_, c2, fun p => ⟨fun h => ?_, fun h => ?_⟩⟩
  · unfold refreshUnder reinitUnder
    rw [b1, Res.bind_ok, Res.bind_ok]
    simp only
    rw [c1, Res.bind_ok]
  · rw [c3, (b3 p).1 h]
  · rw [c3, (b3 p).2 h]
    by_cases hpl : p < s.axis.length
    · have hz : ((pick es idx).map fun e => F e p).sum = 0 := by
        apply List.sum_eq_zero
        intro v hv
        obtain ⟨e, he, rfl⟩ := List.mem_map.1 hv
        obtain ⟨i, hi', hei⟩ := List.mem_filterMap.1 he
        exact flux_zero hc (hF e (List.mem_of_getElem? hei)) p hpl fun hcv => h ⟨e, he, hcv⟩
      rw [hz]
      simp
    · rw [List.getElem?_eq_none (by omega)]; rfl

/-- The sums over the elements of a list of distinct indexes and over all the elements agree when the other elements count for nothing. -/
theorem pick_sum (es : List (El K G)) (idx : List Nat) (hd : idx.Nodup) (hi : ∀ i ∈ idx, i < es.length) (f : El K G → K)
    (hz : ∀ (i : Nat) e, es[i]? = some e → i ∉ idx → f e = 0) : ((pick es idx).map f).sum = (es.map f).sum := by
  have h1 : ((pick es idx).map f) = idx.map fun i => (es[i]?.map f).getD 0 := by
    unfold pick
    clear hd hz
    induction idx with
    | nil => rfl
    | cons i idx ih =>
      have hil := hi i (by simp)
      rw [List.filterMap_cons_some (List.getElem?_eq_getElem hil), List.map_cons, List.map_cons, ih fun j hj => hi j (by simp [hj]),
        List.getElem?_eq_getElem hil]
      rfl
  have h2 : es.map f = (List.range es.length).map fun i => (es[i]?.map f).getD 0 := by
    apply List.ext_getElem
    · simp
    · intro n a b
      simp at a
      simp [List.getElem?_eq_getElem a]
  rw [h1, h2]
  have hsub : idx.toFinset ⊆ Finset.range es.length := by
    intro i hi'
    rw [List.mem_toFinset] at hi'
    exact Finset.mem_range.2 (hi i hi')
  have e1 : (idx.map fun i => (es[i]?.map f).getD 0).sum = ∑ i ∈ idx.toFinset, (es[i]?.map f).getD 0 := by
    rw [List.sum_toFinset _ hd]
  have e2 : ((List.range es.length).map fun i => (es[i]?.map f).getD 0).sum = ∑ i ∈ Finset.range es.length, (es[i]?.map f).getD 0 := by
    rw [← List.toFinset_range, List.sum_toFinset _ List.nodup_range]
  rw [e1, e2]
  apply Finset.sum_subset hsub
  intro i _ hn
  rw [List.mem_toFinset] at hn
  cases h : es[i]? with
  | none => rfl
  | some e => exact hz i e h hn

/-- **C81, partial and full refresh.** After a full refresh (without amplitude offsets), changing the amplitudes of some elements and refreshing these
elements gives the full model, provided that no other element shares a sample with them. -/
theorem C81_under_eq_full (undef : G) (es0 es : List (El K G)) (idx : List Nat) (s s0 : St K) (hs : SAxis.Increasing s.axis) (hne : s.axis ≠ [])
    (hp0 : Prepared s.axis es0) (hp : Prepared s.axis es) (hc : s.cont.length = s.axis.length) (ho : s.offsets = false) (hd : idx.Nodup)
    (hl : es0.length = es.length) (hi : ∀ i ∈ idx, i < es.length)
    (hsame : ∀ i, i ∉ idx → es0[i]? = es[i]?) (hsup : ∀ i ∈ idx, ∀ e0 e, es0[i]? = some e0 → es[i]? = some e → e0.base.sup = e.base.sup)
    (hdis : ∀ (p : Nat), p < s.axis.length → (∃ e ∈ pick es idx, Covered e.base p) → ∀ (j : Nat) e, es[j]? = some e → j ∉ idx → ¬ Covered e.base p)
    (h0 : refresh undef es0 .all s = .ok s0) :
    ∃ s1, refreshUnder es idx none s0 = .ok s1 ∧ refresh undef es .all s0 = .ok s1 := by
  classical
  have hex : ∃ F : El K G → Nat → K, ∀ e, (∃ lr lines, prepareSupport s.axis lr lines = .ok e.base.sup) → IsFlux s.axis s.cont e (F e) := by
    refine ⟨fun e => if h : ∃ lr lines, prepareSupport s.axis lr lines = .ok e.base.sup then (flux_exists s.axis hs hne s.cont e h).choose else fun _ => 0,
      fun e h => ?_⟩
    simp only [dif_pos h]
    exact (flux_exists s.axis hs hne s.cont e h).choose_spec
  obtain ⟨F, hF⟩ := hex
  obtain ⟨m0, m, a1, a2, a3, a4, a5⟩ := C81_refresh undef es0 .all s hs hne hp0 hc F (fun e he => hF e (hp0 e he))
  rw [ho] at a1
  simp only [Bool.false_eq_true, if_false] at a1
  subst a1
  rw [h0] at a3
  cases a3
  simp only [decide_true, Bool.true_or, List.filter_true] at a5
  obtain ⟨m1, b1, b2, b3⟩ := C81_refresh_under es idx { s with model := m } hs hne hp hc a4 hi F (fun e he => hF e (hp e he))
  obtain ⟨m0, m2, c1, c2, c3, c4, c5⟩ := C81_refresh undef es .all { s with model := m } hs hne hp hc F (fun e he => hF e (hp e he))
  simp only [ho, Bool.false_eq_true, if_false] at c1
  subst c1
  simp only [decide_true, Bool.true_or, List.filter_true] at c5
  refine ⟨_, b1, ?_⟩
  rw [c3]
  congr 2
  apply List.ext_getElem?
  intro p
  rw [c5 p]
  by_cases hpl : p < s.axis.length
  · have hflux : ∀ (e : El K G), e ∈ es → ¬ Covered e.base p → F e p = 0 := fun e he hn => flux_zero hc (hF e (hp e he)) p hpl hn
    have hflux0 : ∀ (e : El K G), e ∈ es0 → ¬ Covered e.base p → F e p = 0 := fun e he hn => flux_zero hc (hF e (hp0 e he)) p hpl hn
    by_cases hcov : ∃ e ∈ pick es idx, Covered e.base p
    · rw [(b3 p).1 hcov]
      simp only
      rw [pick_sum es idx hd hi (fun e => F e p) fun i e he hn => hflux e (List.mem_of_getElem? he) (hdis p hpl hcov i e he hn)]
    · rw [(b3 p).2 hcov]
      simp only
      rw [a5 p]
      congr 2
      funext y
      congr 2
      apply List.ext_getElem
      · simp [hl]
      · intro i h1 h2
        simp only [List.length_map] at h1 h2
        rw [List.getElem_map, List.getElem_map]
        by_cases him : i ∈ idx
        · have q1 : F es0[i] p = 0 := hflux0 _ (List.getElem_mem _) fun hcv => hcov ⟨es[i], List.mem_filterMap.2 ⟨i, him, List.getElem?_eq_getElem h1⟩, by
            have := hsup i him es0[i] es[i] (List.getElem?_eq_getElem h2) (List.getElem?_eq_getElem h1)
            unfold Covered at hcv ⊢
            rw [← this]
            exact hcv⟩
          have q2 : F es[i] p = 0 := hflux _ (List.getElem_mem _) fun hcv => hcov ⟨es[i], List.mem_filterMap.2 ⟨i, him, List.getElem?_eq_getElem h1⟩, hcv⟩
          rw [q1, q2]
        · have := hsame i him
          rw [List.getElem?_eq_getElem h2, List.getElem?_eq_getElem h1, Option.some.injEq] at this
          rw [this]
  · rw [List.getElem?_eq_none (by omega), List.getElem?_eq_none (by omega)]
    rfl

/-- **C81, model of a list of elements.** At each sample it is the continuum plus the flux of the last element of the list that covers the
sample only (nothing more if that element has not the type asked for), and 0 where no element of the list covers it. -/
theorem C81_get_model (es : List (El K G)) (idx : List Nat) (filter : Amp.LType) (s : St K) (hs : SAxis.Increasing s.axis) (hne : s.axis ≠ [])
    (hp : Prepared s.axis es) (hc : s.cont.length = s.axis.length) (hi : ∀ i ∈ idx, i < es.length)
    (F : El K G → Nat → K) (hF : ∀ e ∈ es, IsFlux s.axis s.cont e (F e)) :
    ∃ m, getModel es idx filter s = .ok m ∧ m.length = s.axis.length ∧ ∀ (p : Nat), p < s.axis.length →
      ((∀ e ∈ pick es idx, ¬ Covered e.base p) → m[p]? = some 0) ∧
      ∀ a i b e, idx = a ++ i :: b → es[i]? = some e → Covered e.base p → (∀ e' ∈ pick es b, ¬ Covered e'.base p) →
        m[p]? = (s.cont[p]?).map fun c => c + if filter = .all ∨ filter = e.base.type then F e p else 0 := by
  obtain ⟨m, b1, b2, b3⟩ := foldL_inv (fun (pre : List Nat) (m : List K) => m.length = s.axis.length ∧ ∀ (p : Nat), p < s.axis.length →
      ((∀ e ∈ pick es pre, ¬ Covered e.base p) → m[p]? = some 0) ∧
      ∀ a i b e, pre = a ++ i :: b → es[i]? = some e → Covered e.base p → (∀ e' ∈ pick es b, ¬ Covered e'.base p) →
        m[p]? = (s.cont[p]?).map fun c => c + if filter = .all ∨ filter = e.base.type then F e p else 0)
    idx [] (List.replicate s.axis.length 0)
    ⟨by simp, by
      intro p hpl
      refine ⟨fun _ => by rw [List.getElem?_replicate, if_pos hpl], ?_⟩
      intro a i b e h
      exact absurd h (by simp)⟩
    (f := fun i flux => Res.at_ es i >>= fun e => EltSup.initModel e.base.sup none s.cont flux >>= fun f1 =>
      if EltList.typeKept filter e.base.type then addElt s none e f1 else .ok f1)
    (by
      intro pre i m him ⟨q1, q2⟩
      have hil := hi i him
      have hem : es[i] ∈ es := List.getElem_mem _
      obtain ⟨f1, r1, r2, r3⟩ := elt_init s.axis hs hne s.cont hc es[i] (hp _ hem) m q1
      obtain ⟨f2, t1, t2, t3⟩ := elt_add s.axis hs hne s.cont hc es[i] (hp _ hem) (F es[i]) (hF _ hem) f1 r2
      have hk : typeKept filter es[i].base.type = true ↔ (filter = .all ∨ filter = es[i].base.type) := by
        unfold typeKept; simp
      have hstep : ∃ f', (if EltList.typeKept filter es[i].base.type then addElt s none es[i] f1 else .ok f1) = .ok f' ∧ f'.length = s.axis.length ∧
          ∀ (p : Nat), f'[p]? = (f1[p]?).map fun y => y + if filter = .all ∨ filter = es[i].base.type then F es[i] p else 0 := by
        by_cases h : typeKept filter es[i].base.type = true
        · refine ⟨f2, by rw [if_pos h]; exact t1, t2, fun p => ?_⟩
          rw [t3, if_pos (hk.1 h)]
        · refine ⟨f1, by rw [if_neg h], r2, fun p => ?_⟩
          rw [if_neg (fun q => h (hk.2 q))]
          simp
      obtain ⟨f', u1, u2, u3⟩ := hstep
      refine ⟨f', by rw [Res.at_of_lt hil, Res.bind_ok, r1, Res.bind_ok]; exact u1, u2, fun p hpl => ?_⟩
      have hzero : ¬ Covered es[i].base p → (if filter = .all ∨ filter = es[i].base.type then F es[i] p else 0) = 0 := by
        intro hn
        split
        · exact flux_zero hc (hF _ hem) p hpl hn
        · rfl
      have hunch : ¬ Covered es[i].base p → f'[p]? = m[p]? := by
        intro hn
        rw [u3, (r3 p).2 hn, hzero hn]
        simp
      rw [pick_append, pick_single es hil]
      constructor
      · intro hall
        rw [hunch (hall _ (by simp))]
        exact (q2 p hpl).1 fun e he => hall e (List.mem_append_left _ he)
      · intro a j b e hpre hje hcv hb
        rcases List.eq_nil_or_concat b with hbn | ⟨b', x, hbx⟩
        · subst hbn
          obtain ⟨rfl, h2⟩ := List.append_inj' hpre rfl
          simp only [List.cons.injEq, and_true] at h2
          subst h2
          rw [List.getElem?_eq_getElem hil, Option.some.injEq] at hje
          subst hje
          rw [u3, (r3 p).1 hcv]
        · rw [List.concat_eq_append] at hbx
          subst hbx
          rw [← List.cons_append, ← List.append_assoc] at hpre
          obtain ⟨h1, h2⟩ := List.append_inj' hpre rfl
          simp only [List.cons.injEq, and_true] at h2
          subst h2
          rw [pick_append, pick_single es hil] at hb
          rw [hunch (hb _ (by simp))]
          exact (q2 p hpl).2 a j b' e h1 hje hcv fun e' he' => hb e' (List.mem_append_left _ he'))
  exact ⟨m, b1, b2, by simpa using b3⟩

/-! ## Cases that meet the hypotheses -/

/-- Seven samples. -/
def exAxis : List ℚ := [0, 1, 2, 3, 4, 5, 6]

/-- The supports of an element of one line at `mu` with a window `win` on these samples. -/
def exSup (mu win : ℚ) : Elt := match prepareSupport exAxis ⟨0, 6⟩ [⟨true, mu, win⟩] with
  | .ok e => e
  | _ => ⟨0, fun _ => ⟨-1, -1, true⟩, ⟨fun _ => -1, fun _ => -1, fun _ _ => false⟩⟩

/-- An emission element of one line of amplitude `a` and of constant profile 1, with a constant offset `off`. -/
def exEl (mu win a off : ℚ) (g : Nat) : El ℚ Nat := ⟨⟨exSup mu win, .emission, g, fun _ => off, fun _ => mu, fun _ => win, []⟩, true, fun _ => ⟨some a, fun _ => 1⟩, some a⟩

def exOk (mu win : ℚ) : Bool := match prepareSupport exAxis ⟨0, 6⟩ [⟨true, mu, win⟩] with
  | .ok _ => true
  | _ => false

theorem exSup_ok (mu win : ℚ) (h : exOk mu win = true) : prepareSupport exAxis ⟨0, 6⟩ [⟨true, mu, win⟩] = .ok (exSup mu win) := by
  unfold exSup
  unfold exOk at h
  split
  · rename_i e he; exact he
  · rename_i hn
    split at h
    · rename_i e he; exact absurd he (hn e)
    · simp at h

/-- Two elements that overlap at the samples 2 and 3. -/
def exEs : List (El ℚ Nat) := [exEl 2 2 10 0 1, exEl (5 / 2) 1 20 100 2]

def exSt : St ℚ := ⟨exAxis, [1, 1, 1, 1, 1, 1, 1], [0, 0, 0, 0, 0, 0, 0], [1, 2, 3, 4, 5, 6, 7], [0, 0, 0, 0, 0, 0, 0], false⟩

example : SAxis.Increasing exSt.axis ∧ exSt.axis ≠ [] ∧ Prepared exSt.axis exEs ∧ exSt.cont.length = exSt.axis.length ∧ exSt.model.length = exSt.axis.length ∧
    exSt.spc.length = exSt.axis.length := by
  refine ⟨by unfold SAxis.Increasing; decide +kernel, by decide, ?_, rfl, rfl, rfl⟩
  intro e he
  simp only [exEs, List.mem_cons, List.not_mem_nil, or_false] at he
  rcases he with rfl | rfl
  · exact ⟨_, _, exSup_ok 2 2 (by decide +kernel)⟩
  · exact ⟨_, _, exSup_ok (5 / 2) 1 (by decide +kernel)⟩

/-- The flux of the state a computation leaves. -/
def flux (r : Res (St ℚ)) : Res (List ℚ) := r >>= fun s => .ok s.model

/-- The samples 1 to 3 hold the first element, the samples 2 and 3 both. -/
example : flux (refresh 0 exEs .all exSt) = .ok [1, 12, 33, 34, 5, 6, 7] ∧ flux (refresh 0 exEs .absorption exSt) = .ok [1, 2, 3, 4, 5, 6, 7] ∧
    flux (refreshUnder exEs [0] none { exSt with model := [9, 9, 9, 9, 9, 9, 9] }) = .ok [9, 12, 13, 14, 9, 9, 9] := by
  decide +kernel

/-- A partial refresh right after a full one, with nothing changed, loses the flux of an element that is not in the list and overlaps one that is. -/
theorem C81_overlap_counterexample : ∃ (es : List (El ℚ Nat)) (s : St ℚ), SAxis.Increasing s.axis ∧ Prepared s.axis es ∧
    flux (refresh 0 es .all s) = .ok [1, 12, 33, 34, 5, 6, 7] ∧ flux (refresh 0 es .all s >>= refreshUnder es [0] none) = .ok [1, 12, 13, 14, 5, 6, 7] := by
  refine ⟨exEs, exSt, by unfold SAxis.Increasing; decide +kernel, ?_, by decide +kernel, by decide +kernel⟩
  intro e he
  simp only [exEs, List.mem_cons, List.not_mem_nil, or_false] at he
  rcases he with rfl | rfl
  · exact ⟨_, _, exSup_ok 2 2 (by decide +kernel)⟩
  · exact ⟨_, _, exSup_ok (5 / 2) 1 (by decide +kernel)⟩

/-- With the amplitude offsets enabled a partial refresh loses the offsets of the samples it sets, even of the elements of its list. -/
theorem C81_offset_counterexample : ∃ (es : List (El ℚ Nat)) (s : St ℚ), SAxis.Increasing s.axis ∧ Prepared s.axis es ∧ s.offsets = true ∧
    flux (refresh 0 es .all s) = .ok [1, 2, 123, 124, 5, 6, 7] ∧ flux (refresh 0 es .all s >>= refreshUnder es [0] none) = .ok [1, 2, 23, 24, 5, 6, 7] := by
  refine ⟨[exEl (5 / 2) 1 20 100 2], { exSt with offsets := true }, by unfold SAxis.Increasing; decide +kernel, ?_, rfl, by decide +kernel, by decide +kernel⟩
  intro e he
  simp only [List.mem_cons, List.not_mem_nil, or_false] at he
  rcases he with rfl
  exact ⟨_, _, exSup_ok (5 / 2) 1 (by decide +kernel)⟩

/-- The model of a list of overlapping elements is not the continuum plus their fluxes, and depends on the order of the list. -/
theorem C81_get_model_counterexample : ∃ (es : List (El ℚ Nat)) (s : St ℚ), SAxis.Increasing s.axis ∧ Prepared s.axis es ∧
    flux (refresh 0 es .all s) = .ok [1, 12, 33, 34, 5, 6, 7] ∧ getModel es [0, 1] .all s = .ok [0, 12, 23, 24, 0, 0, 0] ∧
    getModel es [1, 0] .all s = .ok [0, 12, 13, 14, 0, 0, 0] := by
  refine ⟨exEs, exSt, by unfold SAxis.Increasing; decide +kernel, ?_, by decide +kernel, by decide +kernel, by decide +kernel⟩
  intro e he
  simp only [exEs, List.mem_cons, List.not_mem_nil, or_false] at he
  rcases he with rfl | rfl
  · exact ⟨_, _, exSup_ok 2 2 (by decide +kernel)⟩
  · exact ⟨_, _, exSup_ok (5 / 2) 1 (by decide +kernel)⟩

/-- The hypotheses of the equality of the partial and the full refresh: two elements with no common sample, the amplitude of the first changed. -/
example : let es0 := [exEl 2 2 10 0 1, exEl (11 / 2) 1 20 100 2]; let es := [exEl 2 2 30 0 1, exEl (11 / 2) 1 20 100 2]
    flux (refresh 0 es0 .all exSt) = .ok [1, 12, 13, 14, 5, 26, 27] ∧ flux (refresh 0 es0 .all exSt >>= refreshUnder es [0] none) = .ok [1, 32, 33, 34, 5, 26, 27] ∧
    flux (refresh 0 es .all exSt) = .ok [1, 32, 33, 34, 5, 26, 27] ∧
    (∀ (p : Nat), p < 7 → (∃ e ∈ pick es [0], Covered e.base p) → ∀ (j : Nat) e, es[j]? = some e → j ∉ [0] → ¬ Covered e.base p) := by
  refine ⟨by decide +kernel, by decide +kernel, by decide +kernel, ?_⟩
  rintro p hp ⟨e, he, k, h1, h2, h3, h4⟩ j e' hj hn ⟨k', g1, g2, g3, g4⟩
  simp only [pick, List.filterMap_cons, List.filterMap_nil, List.getElem?_cons_zero, List.mem_singleton] at he
  subst he
  match j with
  | 0 => simp at hn
  | 1 =>
    simp only [List.getElem?_cons_succ, List.getElem?_cons_zero, Option.some.injEq] at hj
    subst hj
    have n1 : (exEl 2 2 30 0 1).base.sup.n = 1 := by decide +kernel
    have n2 : (exEl (11 / 2) 1 20 100 2).base.sup.n = 1 := by decide +kernel
    rw [n1] at h1
    rw [n2] at g1
    obtain rfl : k = 0 := by omega
    obtain rfl : k' = 0 := by omega
    have e1 : (exEl 2 2 30 0 1).base.sup.sup.e 0 = 3 := by decide +kernel
    have e2 : (exEl (11 / 2) 1 20 100 2).base.sup.sup.s 0 = 5 := by decide +kernel
    rw [e1] at h4
    rw [e2] at g3
    omega
  | j + 2 => simp at hj

end SpcModel
end Amazed
