import Verif.Props.SpcModelProps
import Verif.Props.MeiksinProps
import Mathlib.Tactic.Linarith
import Mathlib.Tactic.FieldSimp
import Mathlib.Tactic.Ring

set_option linter.unusedVariables false
set_option linter.unusedSectionVars false

/-! # Spectrum with the lines removed, residuals under elements (C82, C83) -/

namespace Amazed
namespace SpcModel
open EltSup EltList

variable {K : Type} [Field K] [LinearOrder K] [IsStrictOrderedRing K] {G : Type} [LinearOrder G]

/-- The theoretical support of a line in range of a prepared element is in the spectrum. -/
theorem theo_bounds {axis : List K} (hs : SAxis.Increasing axis) (hne : axis ≠ []) {e : El K G}
    (he : ∃ lr lines, prepareSupport axis lr lines = .ok e.base.sup) {k : Nat} (hk : k < e.base.sup.n) (ho : (e.base.sup.theo k).out = false) :
    0 ≤ (e.base.sup.theo k).s ∧ (e.base.sup.theo k).s ≤ (e.base.sup.theo k).e ∧ (e.base.sup.theo k).e < axis.length := by
  obtain ⟨lr, lines, he⟩ := he
  obtain ⟨e', h1, h2, h3, _⟩ := C71_groups axis hs hne lr lines
  rw [he] at h1
  cases h1
  have hll : k < lines.length := by rw [← h2]; exact hk
  have h6 := h3 k lines[k] (List.getElem?_eq_getElem hll)
  obtain ⟨t, ht, hin⟩ := C71_theoretical axis hs hne lr lines[k]
  rw [ht] at h6
  simp only [Res.ok.injEq] at h6
  subst h6
  have := hin ho
  exact ⟨this.2.1, this.2.2.1, this.2.2.2.1⟩

theorem theoSupport_mem (e : EltSup.Elt) (r : ℤ × ℤ) : r ∈ theoSupport e ↔ ∃ k, k < e.n ∧ (e.theo k).out = false ∧ r = ((e.theo k).s, (e.theo k).e) := by
  unfold theoSupport
  split
  · rename_i h
    constructor
    · simp
    · rintro ⟨k, h1, h2, _⟩
      rw [visible_inside h1 h2] at h
      exact absurd h (by simp)
  · simp only [List.mem_map, List.mem_filter, List.mem_range]
    constructor
    · rintro ⟨k, ⟨h1, h2⟩, rfl⟩
      exact ⟨k, h1, by simpa using h2, rfl⟩
    · rintro ⟨k, h1, h2, rfl⟩
      exact ⟨k, ⟨h1, by simpa using h2⟩, rfl⟩

/-- The weight of position `x` between `lo` and `hi`: 1 at the centre, 0 at the ends, linear between. -/
def Triangle (lo hi x v : K) : Prop := v * (hi - lo) = 2 * min (x - lo) (hi - x)

theorem triangle_bounds {lo hi x v : K} (h1 : lo < x) (h2 : x < hi) (h : Triangle lo hi x v) : 0 < v ∧ v ≤ 1 := by
  unfold Triangle at h
  have hd : 0 < hi - lo := by linarith
  have hm : 0 < min (x - lo) (hi - x) := lt_min (by linarith) (by linarith)
  have hm2 : 2 * min (x - lo) (hi - x) ≤ hi - lo := by
    have a := min_le_left (x - lo) (hi - x)
    have b := min_le_right (x - lo) (hi - x)
    linarith
  constructor
  · by_contra hc
    push Not at hc
    have : v * (hi - lo) ≤ 0 := mul_nonpos_of_nonpos_of_nonneg hc hd.le
    linarith
  · by_contra hc
    push Not at hc
    have : 1 * (hi - lo) < v * (hi - lo) := mul_lt_mul_of_pos_right hc hd
    linarith

/-- A sample strictly inside of the theoretical support of a line in range of an element of the list has weight `v` for that line. -/
def LineWeight (axis : List K) (es : List (El K G)) (p : Nat) (v : K) : Prop :=
  ∃ e ∈ es, ∃ k, k < e.base.sup.n ∧ (e.base.sup.theo k).out = false ∧ (e.base.sup.theo k).s < p ∧ (p : ℤ) < (e.base.sup.theo k).e ∧
    ∃ lo hi x, axis[(e.base.sup.theo k).s.toNat]? = some lo ∧ axis[(e.base.sup.theo k).e.toNat]? = some hi ∧ axis[p]? = some x ∧ Triangle lo hi x v

theorem rangeWeight_spec (axis : List K) (hs : SAxis.Increasing axis) (p : Nat) (hp : p < axis.length) (r : ℤ × ℤ) (h0 : 0 ≤ r.1) (h1 : r.2 < axis.length) :
    (¬ (r.1 < p ∧ (p : ℤ) < r.2) ∧ rangeWeight axis p r = .ok 0) ∨
      (r.1 < p ∧ (p : ℤ) < r.2 ∧ ∃ v lo hi x, rangeWeight axis p r = .ok v ∧ axis[r.1.toNat]? = some lo ∧ axis[r.2.toNat]? = some hi ∧ axis[p]? = some x ∧
        lo < x ∧ x < hi ∧ Triangle lo hi x v) := by
  unfold rangeWeight
  by_cases h : (p : ℤ) > r.1 ∧ (p : ℤ) < r.2
  · right
    have a1 : r.1.toNat < axis.length := by omega
    have a2 : r.2.toNat < axis.length := by omega
    have hlx : axis[r.1.toNat] < axis[p] := List.pairwise_iff_getElem.1 hs _ _ a1 hp (by omega)
    have hxh : axis[p] < axis[r.2.toNat] := List.pairwise_iff_getElem.1 hs _ _ hp a2 (by omega)
    have hd : 0 < axis[r.2.toNat] - axis[r.1.toNat] := by linarith
    refine ⟨h.1, h.2, 1 - |(axis[p] - axis[r.1.toNat]) - (axis[r.2.toNat] - axis[p])| / (axis[r.2.toNat] - axis[r.1.toNat]),
      axis[r.1.toNat], axis[r.2.toNat], axis[p], ?_, List.getElem?_eq_getElem a1, List.getElem?_eq_getElem a2, List.getElem?_eq_getElem hp, hlx, hxh, ?_⟩
    · rw [if_pos h]
      unfold Res.atZ
      rw [if_neg (by omega), if_neg (by omega), Res.at_of_lt a1, Res.bind_ok, Res.at_of_lt a2, Res.bind_ok, Res.at_of_lt hp, Res.bind_ok, if_pos hd]
    · unfold Triangle
      rw [sub_mul, div_mul_cancel₀ _ hd.ne']
      rcases le_total (axis[p] - axis[r.1.toNat]) (axis[r.2.toNat] - axis[p]) with hh | hh
      · rw [min_eq_left hh, abs_of_nonpos (by linarith)]; ring
      · rw [min_eq_right hh, abs_of_nonneg (by linarith)]; ring
  · left
    rw [if_neg h]
    exact ⟨fun q => h q, rfl⟩

/-- **C82, weight of a sample.** It is the largest of the weights of the lines of the elements at that sample, 0 if there is none; it is between 0
and 1. -/
theorem C82_weight (axis : List K) (hs : SAxis.Increasing axis) (hne : axis ≠ []) (es : List (El K G)) (hp : Prepared axis es) (idx : List Nat)
    (hi : ∀ i ∈ idx, i < es.length) (p : Nat) (hpl : p < axis.length) :
    ∃ w, weight es axis idx p = .ok w ∧ 0 ≤ w ∧ w ≤ 1 ∧ (w = 0 ∨ LineWeight axis (pick es idx) p w) ∧ ∀ v, LineWeight axis (pick es idx) p v → v ≤ w := by
  have key : ∃ w, weight es axis idx p = .ok w ∧ 0 ≤ w ∧ (w = 0 ∨ LineWeight axis (pick es idx) p w) ∧ ∀ v, LineWeight axis (pick es idx) p v → v ≤ w := by
    unfold weight
    obtain ⟨w, b1, b2⟩ := foldL_inv (fun (pre : List Nat) (w : K) => 0 ≤ w ∧ (w = 0 ∨ LineWeight axis (pick es pre) p w) ∧
        ∀ v, LineWeight axis (pick es pre) p v → v ≤ w) idx [] 0
      ⟨le_refl _, Or.inl rfl, by rintro v ⟨e, he, _⟩; exact absurd he (by simp [pick])⟩
      (f := fun i w => Res.at_ es i >>= fun e =>
        EltList.foldL (fun r w => rangeWeight axis p r >>= fun v => .ok (if w < v then v else w)) (theoSupport e.base.sup) w)
      (by
        intro pre i w0 him ⟨q0, q1, q2⟩
        have hil := hi i him
        rw [Res.at_of_lt hil, Res.bind_ok]
        have hprep := hp es[i] (List.getElem_mem _)
        obtain ⟨w', c1, c2, c3, c4, c5⟩ := foldL_inv (fun (pre' : List (ℤ × ℤ)) (w : K) => w0 ≤ w ∧ 0 ≤ w ∧
            (w = w0 ∨ LineWeight axis [es[i]] p w) ∧
            ∀ r ∈ pre', ∀ lo hi x v, r.1 < p → (p : ℤ) < r.2 → axis[r.1.toNat]? = some lo → axis[r.2.toNat]? = some hi → axis[p]? = some x → Triangle lo hi x v → v ≤ w)
          (theoSupport es[i].base.sup) [] w0 ⟨le_refl _, q0, Or.inl rfl, by simp⟩
          (f := fun r w => rangeWeight axis p r >>= fun v => .ok (if w < v then v else w))
          (by
            intro pre' r w hr ⟨t0, t1, t2, t3⟩
            obtain ⟨k, hk, hko, hrk⟩ := (theoSupport_mem _ _).1 hr
            have hb := theo_bounds hs hne hprep hk hko
            have hr1 : r.1 = (es[i].base.sup.theo k).s := by rw [hrk]
            have hr2 : r.2 = (es[i].base.sup.theo k).e := by rw [hrk]
            rcases rangeWeight_spec axis hs p hpl r (by omega) (by omega) with ⟨hn, hw⟩ | ⟨ha, hb', v, lo, hi', x, hw, hlo, hhi, hx, hlx, hxh, ht⟩
            · refine ⟨w, by rw [hw, Res.bind_ok, if_neg (not_lt.2 t1)], t0, t1, t2, ?_⟩
              intro r' hr'
              rcases List.mem_append.1 hr' with hr' | hr'
              · exact t3 r' hr'
              · rw [List.mem_singleton.1 hr']
                intro lo hi x v g1 g2
                exact absurd ⟨g1, g2⟩ hn
            · have hv := triangle_bounds hlx hxh ht
              refine ⟨if w < v then v else w, by rw [hw, Res.bind_ok], ?_, ?_, ?_, ?_⟩
              · split
                · rename_i h; exact t0.trans h.le
                · exact t0
              · split
                · exact hv.1.le
                · exact t1
              · split
                · right
                  refine ⟨es[i], by simp, k, hk, hko, by omega, by omega, lo, hi', x, ?_, ?_, hx, ht⟩
                  · rw [← hr1]; exact hlo
                  · rw [← hr2]; exact hhi
                · exact t2
              · intro r' hr'
                rcases List.mem_append.1 hr' with hr' | hr'
                · intro lo hi x v' g1 g2 g3 g4 g5 g6
                  have := t3 r' hr' lo hi x v' g1 g2 g3 g4 g5 g6
                  split
                  · rename_i h; exact this.trans h.le
                  · exact this
                · rw [List.mem_singleton.1 hr']
                  intro lo2 hi2 x2 v' g1 g2 g3 g4 g5 g6
                  rw [hlo] at g3; cases g3
                  rw [hhi] at g4; cases g4
                  rw [hx] at g5; cases g5
                  have : v' = v := by
                    unfold Triangle at g6 ht
                    exact mul_right_cancel₀ (sub_pos.2 (hlx.trans hxh)).ne' (g6.trans ht.symm)
                  subst this
                  split
                  · exact le_refl _
                  · rename_i h; exact not_lt.1 h)
        rw [List.nil_append] at c5
        refine ⟨w', c1, c3, ?_, ?_⟩
        · rw [pick_append, pick_single es hil]
          rcases c4 with rfl | h
          · rcases q1 with h | h
            · exact Or.inl h
            · right
              obtain ⟨e, he, h⟩ := h
              exact ⟨e, List.mem_append_left _ he, h⟩
          · right
            obtain ⟨e, he, h⟩ := h
            exact ⟨e, List.mem_append_right _ he, h⟩
        · rw [pick_append, pick_single es hil]
          rintro v ⟨e, he, h⟩
          rcases List.mem_append.1 he with he | he
          · exact (q2 v ⟨e, he, h⟩).trans c2
          · rw [List.mem_singleton.1 he] at h
            obtain ⟨k, hk, hko, g1, g2, lo, hi', x, g3, g4, g5, g6⟩ := h
            exact c5 ((es[i].base.sup.theo k).s, (es[i].base.sup.theo k).e) ((theoSupport_mem _ _).2 ⟨k, hk, hko, rfl⟩) lo hi' x v g1 g2 g3 g4 g5 g6)
    rw [List.nil_append] at b2
    exact ⟨w, b1, b2⟩
  obtain ⟨w, h1, h2, h3, h4⟩ := key
  refine ⟨w, h1, h2, ?_, h3, h4⟩
  rcases h3 with h | ⟨e, he, k, hk, hko, g1, g2, lo, hi', x, g3, g4, g5, g6⟩
  · rw [h]; exact zero_le_one
  · have hmem : e ∈ es := by
      unfold pick at he
      obtain ⟨i, _, hie⟩ := List.mem_filterMap.1 he
      exact List.mem_of_getElem? hie
    have hb := theo_bounds hs hne (hp e hmem) hk hko
    obtain ⟨a1, e1⟩ := List.getElem?_eq_some_iff.1 g3
    obtain ⟨a2, e2⟩ := List.getElem?_eq_some_iff.1 g4
    obtain ⟨a3, e3⟩ := List.getElem?_eq_some_iff.1 g5
    have hlt : lo < x := by rw [← e1, ← e3]; exact List.pairwise_iff_getElem.1 hs _ _ a1 a3 (by omega)
    have hlt2 : x < hi' := by rw [← e2, ← e3]; exact List.pairwise_iff_getElem.1 hs _ _ a3 a2 (by omega)
    exact (triangle_bounds hlt hlt2 g6).2

/-- The elements that count when lines of the type `filter` are removed: in range, of that type, of positive amplitude. -/
def Counted (filter : Amp.LType) (e : El K G) : Prop :=
  e.base.sup.outside = false ∧ (filter = .all ∨ filter = e.base.type) ∧ ∃ a, e.amp = some a ∧ 0 < a

theorem validIdx_lt (es : List (El K G)) (filter : Amp.LType) : ∀ i ∈ validIdx es filter, i < es.length := by
  intro i h
  unfold validIdx validIndexes at h
  have := (List.mem_filter.1 (List.mem_filter.1 h).1).1
  simpa using this

theorem validIdx_pick (es : List (El K G)) (filter : Amp.LType) (e : El K G) : e ∈ pick es (validIdx es filter) ↔ e ∈ es ∧ Counted filter e := by
  unfold pick
  rw [List.mem_filterMap]
  have hk : typeKept filter e.base.type = true ↔ (filter = .all ∨ filter = e.base.type) := by unfold typeKept; simp
  have ha : (match e.amp with | none => false | some a => decide (0 < a)) = true ↔ ∃ a, e.amp = some a ∧ 0 < a := by
    cases e.amp <;> simp
  constructor
  · rintro ⟨i, h, he⟩
    unfold validIdx validIndexes at h
    obtain ⟨h1, h2⟩ := List.mem_filter.1 h
    obtain ⟨h3, h4⟩ := List.mem_filter.1 h1
    simp only [he, Bool.and_eq_true] at h2
    rw [List.getElem?_map, he] at h4
    simp only [Option.map_some, Bool.and_eq_true, Bool.not_eq_true', List.contains_nil, Bool.not_false, and_true] at h4
    exact ⟨List.mem_of_getElem? he, h4, hk.1 h2.1, ha.1 h2.2⟩
  · rintro ⟨hm, h1, h2, h3⟩
    obtain ⟨i, hi, rfl⟩ := List.getElem_of_mem hm
    refine ⟨i, ?_, List.getElem?_eq_getElem hi⟩
    unfold validIdx validIndexes
    refine List.mem_filter.2 ⟨List.mem_filter.2 ⟨by simpa using hi, ?_⟩, ?_⟩
    · rw [List.getElem?_map, List.getElem?_eq_getElem hi]
      simp [h1]
    · simp only [List.getElem?_eq_getElem hi, Bool.and_eq_true]
      exact ⟨hk.2 h2, ha.2 h3⟩

/-- **C82, spectrum with the lines removed.** At the samples not covered by a counted element the result is the observed flux minus the model plus the continuum;
at the others it is that value blended with the weight 0.9 `w` with the flux `f1` of the model left by the preceding refresh: of the other type of lines if one
type is removed, but the model as it was (normally with its lines) if all the lines are removed. The state left has the model with the lines of the type. -/
theorem C82_removed (undef : G) (es : List (El K G)) (filter : Amp.LType) (s : St K) (hs : SAxis.Increasing s.axis) (hne : s.axis ≠ [])
    (hp : Prepared s.axis es) (hc : s.cont.length = s.axis.length) (hsp : s.spc.length = s.axis.length) (hm : s.model.length = s.axis.length) :
    ∃ (y f1 m : List K), linesRemoved undef es filter s = .ok (y, { s with model := m }) ∧ refresh undef es filter s = .ok { s with model := m } ∧
      (filter = .all → f1 = s.model) ∧ (filter = .emission → refresh undef es .absorption s = .ok { s with model := f1 }) ∧
      (filter = .absorption → refresh undef es .emission s = .ok { s with model := f1 }) ∧ y.length = s.axis.length ∧
      ∀ (p : Nat) o mp c, s.spc[p]? = some o → m[p]? = some mp → s.cont[p]? = some c →
        ((¬ ∃ e ∈ es, Counted filter e ∧ Covered e.base p) → y[p]? = some (o - mp + c)) ∧
        ((∃ e ∈ es, Counted filter e ∧ Covered e.base p) → ∃ w f, weight es s.axis (validIdx es filter) p = .ok w ∧ 0 ≤ w ∧ w ≤ 1 ∧ f1[p]? = some f ∧
          y[p]? = some ((1 - 9 / 10 * w) * (o - mp + c) + 9 / 10 * w * f)) := by
  classical
  have hex : ∃ F : El K G → Nat → K, ∀ e ∈ es, IsFlux s.axis s.cont e (F e) := by
    refine ⟨fun e => if h : ∃ lr lines, prepareSupport s.axis lr lines = .ok e.base.sup then (flux_exists s.axis hs hne s.cont e h).choose else fun _ => 0,
      fun e he => ?_⟩
    have h := hp e he
    simp only [dif_pos h]
    exact (flux_exists s.axis hs hne s.cont e h).choose_spec
  obtain ⟨F, hF⟩ := hex
  have h1 : ∃ f1 : List K, refreshOther undef es filter s = .ok { s with model := f1 } ∧ f1.length = s.axis.length ∧
      (filter = .all → f1 = s.model) ∧ (filter = .emission → refresh undef es .absorption s = .ok { s with model := f1 }) ∧
      (filter = .absorption → refresh undef es .emission s = .ok { s with model := f1 }) := by
    cases filter with
    | all => exact ⟨s.model, rfl, hm, fun _ => rfl, by simp, by simp⟩
    | emission =>
      obtain ⟨_, m, _, _, a3, a4, _⟩ := C81_refresh undef es .absorption s hs hne hp hc F hF
      exact ⟨m, a3, a4, by simp, fun _ => a3, by simp⟩
    | absorption =>
      obtain ⟨_, m, _, _, a3, a4, _⟩ := C81_refresh undef es .emission s hs hne hp hc F hF
      exact ⟨m, a3, a4, by simp, by simp, fun _ => a3⟩
  obtain ⟨f1, a1, a2, a3, a4, a5⟩ := h1
  obtain ⟨m0, m, b1, b2, b3, b4, b5⟩ := C81_refresh undef es filter s hs hne hp hc F hF
  have hrs : refresh undef es filter { s with model := f1 } = .ok { s with model := m } := by
    have : refresh undef es filter { s with model := f1 } = (refresh undef es filter s).bind fun r => .ok { s with model := r.model } := by
      unfold refresh addElt
      simp only
      cases (if s.offsets = true then addOffsets undef (es.map (·.base)) s.axis s.cont [] .all else Res.ok s.cont) with
      | ok m0 =>
        rw [Res.bind_ok]
        cases EltList.foldL (fun (e : El K G) flux => if EltList.typeKept filter e.base.type = true then
            EltSup.addToModel e.base.sup e.emission e.fl none s.axis s.cont flux else .ok flux) es m0 <;> rfl
      | throw e => rfl
      | ub => rfl
    rw [this, b3]
    rfl
  let v : Nat → K := fun p => s.spc.getD p 0 - m.getD p 0 + s.cont.getD p 0
  have htab : Res.tab (fun t => Res.at_ s.spc t >>= fun y => Res.at_ m t >>= fun mm => Res.at_ s.cont t >>= fun c => .ok (y - mm + c)) s.axis.length =
      .ok ((List.range s.axis.length).map v) := by
    apply Res.tab_ok
    intro i hi
    have q1 : i < s.spc.length := by omega
    have q2 : i < m.length := by omega
    have q3 : i < s.cont.length := by omega
    rw [Res.at_of_lt q1, Res.bind_ok, Res.at_of_lt q2, Res.bind_ok, Res.at_of_lt q3, Res.bind_ok]
    simp only [v, List.getD_eq_getElem?_getD, List.getElem?_eq_getElem q1, List.getElem?_eq_getElem q2, List.getElem?_eq_getElem q3, Option.getD_some]
  have hv : ∀ (p : Nat) o mp c, s.spc[p]? = some o → m[p]? = some mp → s.cont[p]? = some c → v p = o - mp + c := by
    intro p o mp c g1 g2 g3
    simp only [v, List.getD_eq_getElem?_getD, g1, g2, g3, Option.getD_some]
  obtain ⟨xs, c1, c2, c3⟩ := C74_support (es.map (·.base)) (validIdx es filter) (fun i h => by simpa using validIdx_lt es filter i h)
  have hcov : ∀ p : ℤ, p ∈ xs ↔ ∃ e ∈ es, Counted filter e ∧ Covered e.base p := by
    intro p
    rw [c3, coveredBy_iff]
    constructor
    · rintro ⟨e, he, h⟩
      obtain ⟨h1, h2⟩ := (validIdx_pick es filter e).1 he
      exact ⟨e, h1, h2, h⟩
    · rintro ⟨e, he, h1, h⟩
      exact ⟨e, (validIdx_pick es filter e).2 ⟨he, h1⟩, h⟩
  have hbd : ∀ p ∈ xs, 0 ≤ p ∧ p < s.axis.length := by
    intro p hpx
    obtain ⟨e, he, _, h⟩ := (hcov p).1 hpx
    exact covered_bounds hs hne hp e.base (List.mem_map.2 ⟨e, he, rfl⟩) p h
  have hloop : ∀ (l pre : List ℤ) (y : List K), (pre ++ l).Pairwise (· < ·) → (∀ z ∈ l, 0 ≤ z ∧ z < s.axis.length) → y.length = s.axis.length →
      (∀ (p : Nat), p < s.axis.length → (((p : ℤ) ∉ pre) → y[p]? = some (v p))) →
      (∀ (p : Nat), p < s.axis.length → (p : ℤ) ∈ pre → ∃ w f, weight es s.axis (validIdx es filter) p = .ok w ∧ 0 ≤ w ∧ w ≤ 1 ∧ f1[p]? = some f ∧
          y[p]? = some ((1 - 9 / 10 * w) * v p + 9 / 10 * w * f)) →
      ∃ y', EltList.foldL (fun z y => if z < 0 then .ub else
        weight es s.axis (validIdx es filter) z.toNat >>= fun w =>
        Res.at_ y z.toNat >>= fun v => Res.at_ f1 z.toNat >>= fun f =>
        .ok (y.set z.toNat ((1 - 9 / 10 * w) * v + 9 / 10 * w * f))) l y = .ok y' ∧ y'.length = s.axis.length ∧
        (∀ (p : Nat), p < s.axis.length → (((p : ℤ) ∉ pre ++ l) → y'[p]? = some (v p))) ∧
        (∀ (p : Nat), p < s.axis.length → (p : ℤ) ∈ pre ++ l → ∃ w f, weight es s.axis (validIdx es filter) p = .ok w ∧ 0 ≤ w ∧ w ≤ 1 ∧ f1[p]? = some f ∧
          y'[p]? = some ((1 - 9 / 10 * w) * v p + 9 / 10 * w * f)) := by
    intro l
    induction l with
    | nil => intro pre y _ _ h1 h2 h3; exact ⟨y, rfl, h1, by simpa using h2, by simpa using h3⟩
    | cons z l ih =>
      intro pre y hpw hb hl h2 h3
      have hz := hb z (by simp)
      obtain ⟨w, w1, w2, w3, _⟩ := C82_weight s.axis hs hne es hp (validIdx es filter) (validIdx_lt es filter) z.toNat (by omega)
      have hzl : z.toNat < y.length := by omega
      have hzf : z.toNat < f1.length := by omega
      have hzpre : (z.toNat : ℤ) ∉ pre := by
        intro hmem
        have := (List.pairwise_append.1 hpw).2.2 _ hmem z (by simp)
        omega
      have hyz : y[z.toNat] = v z.toNat := by
        have := h2 z.toNat (by omega) hzpre
        rw [List.getElem?_eq_getElem hzl, Option.some.injEq] at this
        exact this
      obtain ⟨y', r1, r2, r3, r4⟩ := ih (pre ++ [z]) (y.set z.toNat ((1 - 9 / 10 * w) * v z.toNat + 9 / 10 * w * f1[z.toNat]))
        (by simpa using hpw) (fun q hq => hb q (by simp [hq])) (by simpa using hl)
        (by
          intro p hpl hn
          have hne' : z.toNat ≠ p := by
            rintro rfl
            exact hn (by simp; right; omega)
          rw [List.getElem?_set_ne hne']
          exact h2 p hpl fun h => hn (List.mem_append_left _ h))
        (by
          intro p hpl hmem
          by_cases hpz : z.toNat = p
          · subst hpz
            exact ⟨w, f1[z.toNat], w1, w2, w3, List.getElem?_eq_getElem hzf, by rw [List.getElem?_set_self hzl]⟩
          · have : (p : ℤ) ∈ pre := by
              rcases List.mem_append.1 hmem with h | h
              · exact h
              · have := List.mem_singleton.1 h
                omega
            rw [List.getElem?_set_ne hpz]
            exact h3 p hpl this)
      refine ⟨y', ?_, r2, ?_, ?_⟩
      · unfold EltList.foldL
        rw [if_neg (by omega), w1, Res.bind_ok, Res.at_of_lt hzl, Res.bind_ok, Res.at_of_lt hzf, Res.bind_ok, Res.bind_ok, hyz]
        exact r1
      · simpa using r3
      · simpa using r4
  obtain ⟨y, d1, d2, d3, d4⟩ := hloop xs [] ((List.range s.axis.length).map v) (by simpa using c2) hbd (by simp)
    (by intro p hpl _; simp [hpl]) (by simp)
  rw [List.nil_append] at d3 d4
  refine ⟨y, f1, m, ?_, b3, a3, a4, a5, d2, ?_⟩
  · unfold linesRemoved
    rw [a1, Res.bind_ok, hrs, Res.bind_ok]
    simp only
    rw [htab, Res.bind_ok, c1, Res.bind_ok, d1, Res.bind_ok]
  · intro p o mp c g1 g2 g3
    have hpl : p < s.axis.length := by
      rw [← hc]; exact (List.getElem?_eq_some_iff.1 g3).1
    rw [← hv p o mp c g1 g2 g3]
    exact ⟨fun hn => d3 p hpl (fun h => hn ((hcov p).1 h)), fun h => d4 p hpl ((hcov p).2 h)⟩

/-! ## Cases that meet the hypotheses -/

/-- The observed spectrum is exactly the continuum plus an emission line at the samples 1 to 3, and the model is exact. -/
def exFit : St ℚ := { exSt with spc := [1, 12, 13, 14, 5, 6, 7], model := [1, 12, 13, 14, 5, 6, 7] }

/-- What a removal of lines returns: the flux and the model left. -/
def fluxes (r : Res (List ℚ × St ℚ)) : Res (List ℚ × List ℚ) := r >>= fun q => .ok (q.1, q.2.model)

example : SAxis.Increasing exFit.axis ∧ Prepared exFit.axis [exEl 2 2 10 0 1] ∧ exFit.cont.length = exFit.axis.length ∧ exFit.spc.length = exFit.axis.length ∧
    exFit.model.length = exFit.axis.length ∧ (∃ e ∈ [exEl 2 2 10 0 1], Counted .emission e ∧ Covered e.base 2) ∧
    fluxes (linesRemoved 0 [exEl 2 2 10 0 1] .emission exFit) = .ok ([1, 2, 3, 4, 5, 6, 7], [1, 12, 13, 14, 5, 6, 7]) := by
  refine ⟨by unfold SAxis.Increasing; decide +kernel, ?_, rfl, rfl, rfl, ⟨exEl 2 2 10 0 1, by simp, ⟨by decide +kernel, Or.inr rfl, 10, rfl, by norm_num⟩, 0, by decide +kernel,
    by decide +kernel, by decide +kernel, by decide +kernel⟩, by decide +kernel⟩
  intro e he
  rw [List.mem_singleton.1 he]
  exact ⟨_, _, exSup_ok 2 2 (by decide +kernel)⟩

example : weight [exEl 2 2 10 0 1] exAxis [0] 2 = .ok 1 ∧ weight [exEl 2 2 10 0 1] exAxis [0] 1 = .ok 0 := by decide +kernel

/-- Removing all the lines does not remove them: with an exact model of an emission line, the spectrum without the emission lines is the continuum, and the one
"without all the lines" still has 90 % of the line at its centre; the residual of the continuum in its range, used as the uncertainty of the continuum, is 81
(the square of 0.9 times the amplitude 10) instead of 0. -/
theorem C82_all_counterexample : ∃ (es : List (El ℚ Nat)) (s : St ℚ), SAxis.Increasing s.axis ∧ Prepared s.axis es ∧ s.model = s.spc ∧
    flux (refresh 0 es .all s) = .ok s.spc ∧ s.cont = [1, 2, 3, 4, 5, 6, 7] ∧ fluxes (linesRemoved 0 es .emission s) = .ok (s.cont, s.model) ∧
    fluxes (linesRemoved 0 es .all s) = .ok ([1, 2, 12, 4, 5, 6, 7], s.model) ∧
    (contResidual 0 es s (1, 3) >>= fun q => .ok q.1) = .ok (81, 3) := by
  refine ⟨[exEl 2 2 10 0 1], exFit, by unfold SAxis.Increasing; decide +kernel, ?_, rfl, by decide +kernel, rfl, by decide +kernel, by decide +kernel, by decide +kernel⟩
  intro e he
  rw [List.mem_singleton.1 he]
  exact ⟨_, _, exSup_ok 2 2 (by decide +kernel)⟩

/-- The removal of the lines of one type leaves the model with the lines of that type only: here the emission line is lost from the model by the removal of
the absorption lines. -/
theorem C82_state_counterexample : ∃ (es : List (El ℚ Nat)) (s : St ℚ), Prepared s.axis es ∧ flux (refresh 0 es .all s) = .ok s.model ∧
    (linesRemoved 0 es .absorption s >>= fun q => .ok q.2.model) = .ok s.cont ∧ s.cont ≠ s.model := by
  refine ⟨[exEl 2 2 10 0 1], exFit, ?_, by decide +kernel, by decide +kernel, by decide +kernel⟩
  intro e he
  rw [List.mem_singleton.1 he]
  exact ⟨_, _, exSup_ok 2 2 (by decide +kernel)⟩

end SpcModel
end Amazed
