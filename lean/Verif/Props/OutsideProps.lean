import Verif.Model.Outside
import Verif.Props.MeritProps
import Verif.Props.DirIntMain
import Verif.Props.TplFitLsq
import Verif.Props.MedianContProps
import Mathlib.Data.List.Sort

set_option linter.unusedVariables false
set_option linter.unusedSectionVars false

/-! # C164: samples outside of the lines -/

namespace Amazed
namespace Outside

open EltList Merit

variable {K G : Type} [Field K] [LinearOrder K] [IsStrictOrderedRing K] [LinearOrder G]

/-- A sample is on a line of an element that is not disabled. -/
def OnLine (es : List (E K G)) (disabled : List Nat) (p : Nat) : Prop := ∃ (i : Nat) (e : E K G), es[i]? = some e ∧ i ∉ disabled ∧ Covered e p

/-- The supports of the lines seen are samples of the axis. -/
def SupOk (n : Nat) (es : List (E K G)) : Prop := ∀ e ∈ es, ∀ p : ℤ, Covered e p → 0 ≤ p ∧ p < n

theorem valid_mem (es : List (E K G)) (disabled : List Nat) (i : Nat) : i ∈ validIndexes es disabled ↔ ∃ e, es[i]? = some e ∧ e.sup.outside = false ∧ i ∉ disabled := by
  unfold validIndexes
  rw [List.mem_filter, List.mem_range]
  constructor
  · rintro ⟨h1, h2⟩
    rw [List.getElem?_eq_getElem h1] at h2 ⊢
    simp only [Bool.and_eq_true, Bool.not_eq_true', List.contains_eq_mem, decide_eq_false_iff_not] at h2
    exact ⟨_, rfl, h2.1, h2.2⟩
  · rintro ⟨e, h1, h2, h3⟩
    refine ⟨(List.getElem?_eq_some_iff.1 h1).1, ?_⟩
    rw [h1]
    simp [h2, h3]

/-- **C164, mask.** The mask has one value by sample, 0 on the lines seen of the elements that are not disabled and 1 elsewhere. -/
theorem C164_mask (n : Nat) (es : List (E K G)) (disabled : List Nat) (hs : SupOk n es) :
    ∃ m, maskOf n es disabled = .ok m ∧ m.length = n ∧ ∀ p, p < n → (OnLine es disabled p → m[p]? = some 0) ∧ (¬ OnLine es disabled p → m[p]? = some 1) := by
  obtain ⟨xs, h1, h2, h3⟩ := C74_support es (validIndexes es disabled) (fun i hi => by
    obtain ⟨e, he, -⟩ := (valid_mem es disabled i).1 hi
    exact (List.getElem?_eq_some_iff.1 he).1)
  have hon : ∀ p : ℤ, p ∈ xs ↔ ∃ (i : Nat) (e : E K G), es[i]? = some e ∧ i ∉ disabled ∧ Covered e p := by
    intro p
    rw [h3]
    unfold CoveredBy
    constructor
    · rintro ⟨i, hi, e, he, hc⟩
      obtain ⟨e', he', _, hd⟩ := (valid_mem es disabled i).1 hi
      exact ⟨i, e, he, hd, hc⟩
    · rintro ⟨i, e, he, hd, hc⟩
      exact ⟨i, (valid_mem es disabled i).2 ⟨e, he, covered_inside hc, hd⟩, e, he, hc⟩
  have hin : ∀ p ∈ xs, 0 ≤ p ∧ p < n := by
    intro p hp
    obtain ⟨i, e, he, _, hc⟩ := (hon p).1 hp
    exact hs e (List.mem_of_getElem? he) p hc
  unfold maskOf
  rw [h1, Res.bind_ok]
  have H := foldL_inv (f := fun (z : ℤ) (m : List Nat) => if z < 0 then .ub else Res.at_ m z.toNat >>= fun _ => .ok (m.set z.toNat 0))
    (fun pre m => m.length = n ∧ ∀ p : Nat, p < n → ((p : ℤ) ∈ pre → m[p]? = some 0) ∧ ((p : ℤ) ∉ pre → m[p]? = some 1)) xs [] (List.replicate n 1)
    ⟨by simp, fun p hp => ⟨by simp, fun _ => by simp [hp]⟩⟩
    (by
      rintro pre z m hz ⟨g1, g2⟩
      obtain ⟨hz0, hzn⟩ := hin z hz
      obtain ⟨k, rfl⟩ : ∃ k : Nat, z = k := ⟨z.toNat, by omega⟩
      have hk : k < m.length := by omega
      refine ⟨m.set k 0, ?_, by simpa using g1, ?_⟩
      · rw [if_neg (by omega), Int.toNat_natCast, Res.at_of_lt hk, Res.bind_ok]
      · intro p hp
        by_cases hpk : p = k
        · subst hpk
          exact ⟨fun _ => List.getElem?_set_self hk, fun h => absurd (by simp) h⟩
        · rw [List.getElem?_set_ne (fun e => hpk e.symm)]
          have : (p : ℤ) ≠ k := by omega
          simp only [List.mem_append, List.mem_singleton, this, or_false]
          exact g2 p hp)
  obtain ⟨m, a1, a2, a3⟩ := H
  rw [List.nil_append] at a3
  refine ⟨m, a1, a2, fun p hp => ⟨fun h => (a3 p hp).1 ((hon p).2 h), fun h => (a3 p hp).2 fun hc => h ((hon p).1 hc)⟩⟩

/-- The line is seen: its resolution is known, a sample of its window is before the end of the range by a third of the window and one is after its start by as much. -/
def Seen (axis : List K) (lr : Range K) (g : EltSup.LineGeom K) : Prop :=
  g.avail = true ∧ (∃ (p : Nat) (x : K), DirInt.InWindow axis lr g.mu g.win p ∧ axis[p]? = some x ∧ x < lr.e - 33 / 100 * g.win) ∧
    ∃ (p : Nat) (x : K), DirInt.InWindow axis lr g.mu g.win p ∧ axis[p]? = some x ∧ lr.b + 33 / 100 * g.win < x

theorem theo_seen (axis : List K) (hs : SAxis.Increasing axis) (hne : axis ≠ []) (lr : Range K) (g : EltSup.LineGeom K) :
    ∃ t, EltSup.theoretical axis lr g = .ok t ∧ (t.out = false ↔ Seen axis lr g) ∧
      (t.out = false → (∀ p : Nat, (t.s ≤ p ∧ (p : ℤ) ≤ t.e) ↔ DirInt.InWindow axis lr g.mu g.win p) ∧ 0 ≤ t.s ∧ t.e < axis.length) := by
  obtain ⟨t, h1, h2, h3⟩ := EltSup.theoretical_ok axis hs hne lr g
  obtain ⟨b, e, q1, q2, q3, q4, q5, q6⟩ := DirInt.indexRange_mem axis hs hne lr g.mu g.win
  refine ⟨t, h1, ⟨?_, ?_⟩, ?_⟩
  · intro ho
    obtain ⟨ha, s, e', hs', he', g1, g2, g3, g4, g5, g6⟩ := h2 ho
    rw [q1] at g4
    simp only [Res.ok.injEq, Prod.mk.injEq] at g4
    refine ⟨ha, ⟨s, axis[s], (q6 s).1 (by omega), List.getElem?_eq_getElem hs', g5⟩, e', axis[e'], (q6 e').1 (by omega), List.getElem?_eq_getElem he', g6⟩
  · rintro ⟨ha, ⟨p, x, w1, w2, w3⟩, p', x', w1', w2', w3'⟩
    by_contra hc
    have hc : t.out = true := by simpa using hc
    obtain ⟨s, e', g1, g2⟩ := h3 hc ha
    rw [q1] at g1
    simp only [Res.ok.injEq, Prod.mk.injEq] at g1
    have r1 := (q6 p).2 w1
    have r2 := (q6 p').2 w1'
    obtain ⟨hp, rfl⟩ := List.getElem?_eq_some_iff.1 w2
    obtain ⟨hp', rfl⟩ := List.getElem?_eq_some_iff.1 w2'
    rcases g2 with g2 | ⟨s', e'', hs', he'', g3, g4, g5⟩
    · omega
    · have mono : ∀ (i j : Nat) (hi : i < axis.length) (hj : j < axis.length), i ≤ j → axis[i] ≤ axis[j] := by
        intro i j hi hj hij
        rcases Nat.lt_or_ge i j with h | h
        · exact (EltSup.axis_lt hs hi hj h).le
        · have : i = j := by omega
          subst this; exact le_refl _
      rcases g5 with g5 | g5
      · have := mono s' p hs' hp (by omega)
        exact absurd (lt_of_le_of_lt this w3) (not_lt.2 g5)
      · have := mono p' e'' hp' he'' (by omega)
        exact absurd (lt_of_lt_of_le w3' this) (not_lt.2 g5)
  · intro ho
    obtain ⟨ha, s, e', hs', he', g1, g2, g3, g4, g5, g6⟩ := h2 ho
    rw [q1] at g4
    simp only [Res.ok.injEq, Prod.mk.injEq] at g4
    refine ⟨fun p => ?_, by omega, by omega⟩
    rw [← q6 p]
    constructor <;> rintro ⟨_, _⟩ <;> omega

/-- **C164, mask of a redshift.** The mask given to the fit of the continuum is 0 exactly on the samples in the window of a line seen of an element that is not disabled, and 1 elsewhere, whatever the
supports of the elements before the call. -/
theorem C164_builder (axis : List K) (hs : SAxis.Increasing axis) (hne : axis ≠ []) (lr : Range K) (geoms : List (List (EltSup.LineGeom K))) (es : List (E K G)) (disabled : List Nat)
    (hl : geoms.length = es.length) :
    ∃ m es', getMask axis lr geoms es disabled = .ok (m, es') ∧ m.length = axis.length ∧ SupOk axis.length es' ∧ es'.length = es.length ∧
      ∀ p, p < axis.length → (m[p]? = some 0 ∨ m[p]? = some 1) ∧
        (m[p]? = some 0 ↔ ∃ (i : Nat) (gs : List (EltSup.LineGeom K)) (g : EltSup.LineGeom K), geoms[i]? = some gs ∧ g ∈ gs ∧ i ∉ disabled ∧ Seen axis lr g ∧ DirInt.InWindow axis lr g.mu g.win p) := by
  have hprep : ∀ i, i < es.length → ∃ e' : E K G, (Res.at_ es i >>= fun e => Res.at_ geoms i >>= fun g => EltSup.prepareSupport axis lr g >>= fun s => .ok { e with sup := s }) = .ok e' ∧
      ∃ gs, geoms[i]? = some gs ∧ EltSup.prepareSupport axis lr gs = .ok e'.sup := by
    intro i hi
    obtain ⟨s, h1, -⟩ := EltSup.C71_groups axis hs hne lr (geoms[i]'(by omega))
    rw [Res.at_of_lt hi, Res.bind_ok, Res.at_of_lt (by omega : i < geoms.length), Res.bind_ok, h1, Res.bind_ok]
    exact ⟨_, rfl, _, List.getElem?_eq_getElem (by omega), h1⟩
  unfold getMask prepare
  obtain ⟨es', ht, hlen, -⟩ := MedCont.tab_total (P := fun _ => True) (g := fun i => Res.at_ es i >>= fun e => Res.at_ geoms i >>= fun g => EltSup.prepareSupport axis lr g >>= fun s => .ok { e with sup := s }) es.length
    (fun i hi => ⟨_, (hprep i hi).choose_spec.1, trivial⟩)
  have hget : ∀ (i : Nat) (e' : E K G), es'[i]? = some e' → ∃ gs, geoms[i]? = some gs ∧ EltSup.prepareSupport axis lr gs = .ok e'.sup := by
    intro i e' h
    have hi : i < es.length := by rw [← hlen]; exact (List.getElem?_eq_some_iff.1 h).1
    obtain ⟨e2, a1, a2⟩ := hprep i hi
    obtain ⟨e3, b1, b2⟩ := Res.tab_get _ ht i hi
    rw [h] at b1; cases b1
    rw [a1] at b2; cases b2
    exact a2
  -- a sample is covered exactly if it is in the window of a line seen
  have hcov : ∀ (gs : List (EltSup.LineGeom K)) (e' : E K G), EltSup.prepareSupport axis lr gs = .ok e'.sup → ∀ p : ℤ, Covered e' p ↔ 0 ≤ p ∧ p < axis.length ∧
      ∃ g ∈ gs, Seen axis lr g ∧ DirInt.InWindow axis lr g.mu g.win p.toNat := by
    intro gs e' h p
    rw [← support_mem e' p, EltSup.C71_coverage axis hs hne lr gs e'.sup h p]
    obtain ⟨e2, b1, b2, b3, -⟩ := EltSup.C71_groups axis hs hne lr gs
    rw [h] at b1; cases b1
    constructor
    · rintro ⟨k, ⟨hk1, hk2⟩, h1, h2⟩
      rw [b2] at hk1
      have hg := List.getElem?_eq_getElem hk1
      obtain ⟨t, t1, t2, t3⟩ := theo_seen axis hs hne lr gs[k]
      have ht' := b3 k _ hg
      rw [t1] at ht'
      injection ht' with ht'
      subst ht'
      obtain ⟨u1, u2, u3⟩ := t3 hk2
      refine ⟨by omega, by omega, gs[k], List.getElem_mem hk1, t2.1 hk2, (u1 p.toNat).1 (by omega)⟩
    · rintro ⟨h0, h1, g, hg, hsn, hw⟩
      obtain ⟨k, hk⟩ := List.mem_iff_getElem?.1 hg
      obtain ⟨t, t1, t2, t3⟩ := theo_seen axis hs hne lr g
      have ht' := b3 k _ hk
      rw [t1] at ht'
      injection ht' with ht'
      subst ht'
      obtain ⟨u1, u2, u3⟩ := t3 (t2.2 hsn)
      have := (u1 p.toNat).2 hw
      refine ⟨k, ⟨by rw [b2]; exact (List.getElem?_eq_some_iff.1 hk).1, t2.2 hsn⟩, by omega, by omega⟩
  have hsup : SupOk axis.length es' := by
    intro e' he' p hc
    obtain ⟨i, hi⟩ := List.mem_iff_getElem?.1 he'
    obtain ⟨gs, g1, g2⟩ := hget i e' hi
    obtain ⟨a, b, -⟩ := (hcov gs e' g2 p).1 hc
    exact ⟨a, b⟩
  obtain ⟨m, m1, m2, m3⟩ := C164_mask axis.length es' disabled hsup
  rw [ht, Res.bind_ok, m1, Res.bind_ok]
  refine ⟨m, es', rfl, m2, hsup, hlen, fun p hp => ?_⟩
  have hon : OnLine es' disabled p ↔ ∃ (i : Nat) (gs : List (EltSup.LineGeom K)) (g : EltSup.LineGeom K), geoms[i]? = some gs ∧ g ∈ gs ∧ i ∉ disabled ∧ Seen axis lr g ∧ DirInt.InWindow axis lr g.mu g.win p := by
    constructor
    · rintro ⟨i, e', h1, h2, h3⟩
      obtain ⟨gs, g1, g2⟩ := hget i e' h1
      obtain ⟨_, _, g, a1, a2, a3⟩ := (hcov gs e' g2 p).1 h3
      exact ⟨i, gs, g, g1, a1, h2, a2, by simpa using a3⟩
    · rintro ⟨i, gs, g, h1, h2, h3, h4, h5⟩
      have hi : i < es'.length := by rw [hlen, ← hl]; exact (List.getElem?_eq_some_iff.1 h1).1
      obtain ⟨gs', g1, g2⟩ := hget i _ (List.getElem?_eq_getElem hi)
      rw [h1] at g1; cases g1
      exact ⟨i, _, List.getElem?_eq_getElem hi, h3, (hcov gs _ g2 p).2 ⟨by omega, by omega, g, h2, h4, by simpa using h5⟩⟩
  obtain ⟨q1, q2⟩ := m3 p hp
  by_cases h : OnLine es' disabled p
  · exact ⟨Or.inl (q1 h), ⟨fun _ => hon.1 h, fun _ => q1 h⟩⟩
  · refine ⟨Or.inr (q2 h), ⟨fun h0 => ?_, fun h' => absurd (hon.2 h') h⟩⟩
    rw [q2 h] at h0
    simp at h0

/-- The samples that count: in the wavelength range without its end, not the last of the spectrum, and not masked. -/
def Kept (o : Obs K) (m : List Nat) (ps : List Nat) : Prop := ps.Pairwise (· < ·) ∧ ∀ p, p ∈ ps ↔ Used o p ∧ m[p]? ≠ some 0

theorem sums_spec (o : Obs K) (hw : WF o) (v : List K) (hv : v.length = o.axis.length) (m : List Nat) (hm : m.length = o.axis.length) :
    ∃ ps, Kept o m ps ∧ sums o v m = .ok ((ps.map fun p => v.getD p 0 ^ 2).sum, ps.length) := by
  obtain ⟨i, j, h1, h2, h3, h4, h5, h6⟩ := window o hw
  refine ⟨(List.range' i (j - i)).filter fun p => decide (m[p]? ≠ some 0), ⟨h5.filter _, ?_⟩, ?_⟩
  · intro p
    rw [List.mem_filter, h6 p]
    simp
  · unfold sums
    rw [h1, Res.bind_ok, h2, Res.bind_ok]
    have H := Res.foldN_inv (f := fun j (s : K × Nat) => Res.at_ m j >>= fun b => if b = 0 then .ok s else Res.at_ v j >>= fun x => .ok (s.1 + x * x, s.2 + 1))
      (fun k s => s = ((((List.range' i (k - i)).filter fun p => decide (m[p]? ≠ some 0)).map fun p => v.getD p 0 ^ 2).sum, ((List.range' i (k - i)).filter fun p => decide (m[p]? ≠ some 0)).length))
      (j - i) i ((0 : K), 0) (by simp) ?_
    · obtain ⟨s, a1, a2⟩ := H
      rw [a1, a2, show i + (j - i) - i = j - i by omega]
    · intro k s hk1 hk2 hs
      have hkl : k < o.axis.length := by omega
      rw [Res.at_of_lt (by omega : k < m.length), Res.bind_ok]
      have hr : List.range' i (k + 1 - i) = List.range' i (k - i) ++ [k] := by
        rw [show k + 1 - i = (k - i) + 1 by omega, List.range'_concat]
        congr 2; omega
      rw [hr, List.filter_append]
      have hmk : m[k]? = some m[k] := List.getElem?_eq_getElem (by omega)
      by_cases hb : m[k]'(by omega) = 0
      · rw [if_pos hb]
        refine ⟨_, rfl, ?_⟩
        have : [k].filter (fun p => decide (m[p]? ≠ some 0)) = [] := by simp [hmk, hb]
        rw [this, List.append_nil]; exact hs
      · rw [if_neg hb, Res.at_of_lt (by omega : k < v.length), Res.bind_ok]
        refine ⟨_, rfl, ?_⟩
        have : [k].filter (fun p => decide (m[p]? ≠ some 0)) = [k] := by simp [hmk, hb]
        rw [this, hs]
        simp only [List.map_append, List.map_cons, List.map_nil, List.sum_append, List.sum_cons, List.sum_nil, List.length_append, List.length_cons, List.length_nil]
        rw [List.getD_eq_getElem v _ (by omega), pow_two, add_zero]

/-- **C164, deviation.** The deviation outside of the lines is the root mean square of the continuum-subtracted flux (1) or of the errors (2) over the samples that count; not a number if there is none;
any other selector is refused. -/
theorem C164_std (sq : K → K) (o : Obs K) (hw : WF o) (m : List Nat) (hm : m.length = o.axis.length) (which : ℤ) :
    ∃ ps, Kept o m ps ∧ std sq o m which =
      if which ≠ 1 ∧ which ≠ 2 then .throw .INTERNAL_ERROR
      else .ok (if ps = [] then none else some (sq ((ps.map fun p => (if which = 1 then o.noCont else o.err).getD p 0 ^ 2).sum / ps.length))) := by
  by_cases hwh : which = 1
  · obtain ⟨ps, h1, h2⟩ := sums_spec o hw o.noCont hw.noCont m hm
    refine ⟨ps, h1, ?_⟩
    unfold std
    subst hwh
    have e : ¬ ((1 : ℤ) ≠ 1 ∧ (1 : ℤ) ≠ 2) := by omega
    rw [if_neg e, if_neg e]
    simp only [if_true]
    rw [h2, Res.bind_ok]
    cases ps <;> simp
  · obtain ⟨ps, h1, h2⟩ := sums_spec o hw o.err hw.err m hm
    refine ⟨ps, h1, ?_⟩
    unfold std
    by_cases h2' : which = 2
    · subst h2'
      have e : ¬ ((2 : ℤ) ≠ 1 ∧ (2 : ℤ) ≠ 2) := by omega
      rw [if_neg e, if_neg e]
      simp only [if_neg hwh]
      rw [h2, Res.bind_ok]
      cases ps <;> simp
    · rw [if_pos ⟨hwh, h2'⟩, if_pos ⟨hwh, h2'⟩]

theorem kept_unique {o : Obs K} {m ps ps' : List Nat} (h : Kept o m ps) (h' : Kept o m ps') : ps = ps' := by
  have ir : Std.Irrefl (fun a b : Nat => a < b) := ⟨fun a => Nat.lt_irrefl _⟩
  have as : Std.Antisymm (fun a b : Nat => a < b) := ⟨fun a b h1 h2 => absurd h1 (Nat.lt_asymm h2)⟩
  exact List.Pairwise.eq_of_mem_iff h.1 h'.1 (fun {q} => by rw [h.2, h'.2])

/-- **C164, check.** The result of a candidate is refused (`STDESTIMATION_FAILED`) exactly when no sample that counts is outside of the lines; otherwise both deviations are numbers, that of the errors is
positive, and the warning is raised exactly when their ratio is not in [2/3, 3/2]. -/
theorem C164_update (sq : K → K) (hsq : TplFit.IsSqrt sq) (o : Obs K) (hw : WF o) (es : List (E K G)) (disabled : List Nat) (hs : SupOk o.axis.length es) :
    ((∀ p, Used o p → OnLine es disabled p) → update sq o es disabled = .throw .STDESTIMATION_FAILED) ∧
    ((∃ p, Used o p ∧ ¬ OnLine es disabled p) → ∃ m r i w, update sq o es disabled = .ok ⟨m, some r, some i, w⟩ ∧ maskOf o.axis.length es disabled = .ok m ∧ 0 ≤ r ∧ 0 < i ∧
      (∃ ps, Kept o m ps ∧ ps ≠ [] ∧ r * r = (ps.map fun p => o.noCont.getD p 0 ^ 2).sum / ps.length ∧ i * i = (ps.map fun p => o.err.getD p 0 ^ 2).sum / ps.length) ∧
      (w = true ↔ ¬ (2 / 3 ≤ r / i ∧ r / i ≤ 3 / 2))) := by
  obtain ⟨m, m1, m2, m3⟩ := C164_mask o.axis.length es disabled hs
  obtain ⟨ps, p1, p2⟩ := C164_std sq o hw m m2 1
  obtain ⟨ps', p1', p3⟩ := C164_std sq o hw m m2 2
  rw [kept_unique p1' p1] at p3
  clear p1' ps'
  have hused : ∀ p, Used o p → p < o.axis.length := fun p h => used_lt h
  have hmem : ∀ p, p ∈ ps ↔ Used o p ∧ ¬ OnLine es disabled p := by
    intro p
    rw [p1.2 p]
    constructor
    · rintro ⟨h1, h2⟩
      exact ⟨h1, fun h => h2 ((m3 p (hused p h1)).1 h)⟩
    · rintro ⟨h1, h2⟩
      refine ⟨h1, ?_⟩
      rw [(m3 p (hused p h1)).2 h2]; simp
  unfold update
  rw [if_neg (by omega), if_pos rfl] at p2
  rw [if_neg (by omega), if_neg (by omega : ¬ (2 : ℤ) = 1)] at p3
  rw [m1, Res.bind_ok, p2, Res.bind_ok, p3, Res.bind_ok]
  constructor
  · intro h
    have hps : ps = [] := by
      rw [List.eq_nil_iff_forall_not_mem]
      intro p hp
      obtain ⟨h1, h2⟩ := (hmem p).1 hp
      exact h2 (h p h1)
    simp only [if_pos hps]
  · rintro ⟨p, h1, h2⟩
    have hps : ps ≠ [] := by
      rintro rfl
      have := (hmem p).2 ⟨h1, h2⟩
      cases this
    simp only [if_neg hps]
    have hn : (0 : K) < ps.length := by exact_mod_cast List.length_pos_iff.2 hps
    have hr : 0 ≤ (ps.map fun p => o.noCont.getD p 0 ^ 2).sum / (ps.length : K) := by
      apply div_nonneg _ hn.le
      apply List.sum_nonneg
      intro x hx
      obtain ⟨q, _, rfl⟩ := List.mem_map.1 hx
      exact sq_nonneg _
    have hi : 0 < (ps.map fun p => o.err.getD p 0 ^ 2).sum / (ps.length : K) := by
      apply div_pos _ hn
      apply List.sum_pos
      · intro x hx
        obtain ⟨q, hq, rfl⟩ := List.mem_map.1 hx
        have hq1 := hused q ((hmem q).1 hq).1
        rw [List.getD_eq_getElem o.err _ (by rw [hw.err]; exact hq1)]
        exact pow_pos (hw.pos _ (List.getElem_mem _)) 2
      · simpa using hps
    have hi' := hsq.pos hi
    refine ⟨m, _, _, _, by rw [if_pos hi'], rfl, (hsq _ hr).1, hi', ⟨ps, p1, hps, (hsq _ hr).2, (hsq _ hi.le).2⟩, ?_⟩
    have hq : 0 ≤ sq ((ps.map fun p => o.noCont.getD p 0 ^ 2).sum / ps.length) / sq ((ps.map fun p => o.err.getD p 0 ^ 2).sum / ps.length) := div_nonneg (hsq _ hr).1 hi'.le
    unfold farFrom
    simp only [Bool.or_eq_true, decide_eq_true_eq, abs_of_nonneg hq]
    rw [not_and_or, not_le, not_le]
    have : (1 : K) / (3 / 2) = 2 / 3 := by norm_num
    rw [this]
    exact or_comm

section Examples

/-- An element with the lines given. -/
def exE : E ℚ Nat := ⟨⟨0, fun _ => ⟨-1, -1, true⟩, ⟨fun _ => -1, fun _ => -1, fun _ _ => false⟩⟩, .emission, 0, fun _ => 0, fun _ => 0, fun _ => 0, []⟩

/-- Two elements, the second one disabled; the lines of the first one overlap. -/
example : (getMask ([0, 1, 2, 3, 4, 5, 6, 7, 8, 9] : List ℚ) ⟨0, 9⟩ [[⟨true, 3, 2⟩, ⟨true, 4, 2⟩], [⟨true, 8, 2⟩]] [exE, exE] [1]).bind (fun q => .ok q.1) =
    .ok [1, 1, 0, 0, 0, 0, 1, 1, 1, 1] := by decide +kernel

/-- An observation: constant flux. -/
noncomputable def exO : Obs ℝ := ⟨[1, 2, 3], ⟨1, 3⟩, [1, 1, 1], [1, 1, 1], [0, 0, 0], [0, 0, 0], [1, 1, 1]⟩

/-- The hypotheses of `C164_update` are met; both cases exist: without element, sample 0 counts. -/
example : WF exO ∧ SupOk exO.axis.length ([] : List (E ℝ Nat)) ∧ TplFit.IsSqrt Real.sqrt ∧ ∃ p, Used exO p ∧ ¬ OnLine ([] : List (E ℝ Nat)) [] p := by
  refine ⟨⟨?_, by simp [exO], rfl, rfl, rfl, rfl, rfl, ?_⟩, ?_, fun x hx => ⟨Real.sqrt_nonneg x, Real.mul_self_sqrt hx⟩, 0, ⟨1, rfl, le_refl _, ?_, by simp [exO]⟩, ?_⟩
  · unfold SAxis.Increasing exO; norm_num
  · intro e he; simp [exO] at he; rw [he]; exact one_pos
  · intro e he; cases he
  · show (1 : ℝ) < 3; norm_num
  · rintro ⟨i, e, h, _⟩; simp at h

/-- The lines cover the samples that count: the candidate is refused. -/
example : (update (fun x => x) (⟨[0, 1, 2, 3, 4], ⟨0, 4⟩, [1, 1, 1, 1, 1], [1, 1, 1, 1, 1], [0, 0, 0, 0, 0], [0, 0, 0, 0, 0], [1, 1, 1, 1, 1]⟩ : Obs ℚ)
    [{ exE with sup := ⟨1, fun _ => ⟨0, 3, false⟩, ⟨fun _ => 0, fun _ => 3, fun _ _ => true⟩⟩ }] []).bind (fun x => .ok x.mask) = .throw .STDESTIMATION_FAILED := by decide +kernel

end Examples

end Outside
end Amazed
