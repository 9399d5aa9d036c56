import Mathlib.Data.Rat.Defs
import Mathlib.Algebra.Order.Field.Rat
import Mathlib.Tactic.Ring
import Mathlib.Tactic.Linarith
import Verif.Model.Continuum

/-! # C43: the flux components of a spectrum -/

set_option linter.unusedSectionVars false

namespace Amazed
namespace Continuum

section
variable {K : Type} [Field K] [LinearOrder K] [IsStrictOrderedRing K]

/-- `raw` is the sum of `c` and `w`, sample by sample. -/
def Decomposes (raw c w : List K) : Prop :=
  c.length = raw.length ∧ w.length = raw.length ∧
  ∀ (i : Nat) x, raw[i]? = some x → ∃ cx wx, c[i]? = some cx ∧ w[i]? = some wx ∧ x = cx + wx

theorem decomposes_iff {raw c w : List K} :
    Decomposes raw c w ↔ c.length = raw.length ∧ w.length = raw.length ∧ raw = List.zipWith (· + ·) c w := by
  unfold Decomposes
  refine and_congr_right fun h1 => and_congr_right fun h2 => ⟨fun h => ?_, fun h i x hx => ?_⟩
  · apply List.ext_getElem?
    intro i
    by_cases hi : i < raw.length
    · obtain ⟨cx, wx, h3, h4, h5⟩ := h i raw[i] (List.getElem?_eq_getElem hi)
      rw [List.getElem?_eq_getElem hi, List.getElem?_zipWith, h3, h4, h5]
    · rw [List.getElem?_eq_none (by omega), List.getElem?_eq_none (by simp; omega)]
  · have hi : i < raw.length := (List.getElem?_eq_some_iff.1 hx).1
    refine ⟨c[i], w[i], List.getElem?_eq_getElem (by omega), List.getElem?_eq_getElem (by omega), ?_⟩
    rw [h, List.getElem?_zipWith, List.getElem?_eq_getElem (by omega : i < c.length),
      List.getElem?_eq_getElem (by omega : i < w.length)] at hx
    exact (Option.some.inj hx).symm

theorem sub_length {a b : List K} (h : b.length = a.length) : (sub a b).length = a.length := by
  simp [sub, h]

theorem decomposes_sub {a b : List K} (h : b.length = a.length) : Decomposes a (sub a b) b := by
  refine ⟨sub_length h, h, fun i x hx => ?_⟩
  have hi : i < a.length := (List.getElem?_eq_some_iff.1 hx).1
  refine ⟨x - b[i]'(by omega), b[i]'(by omega), ?_, List.getElem?_eq_getElem _, by ring⟩
  rw [sub, List.getElem?_zipWith, hx, List.getElem?_eq_getElem (by omega : i < b.length)]

theorem Decomposes.symm {a b c : List K} (h : Decomposes a b c) : Decomposes a c b := by
  obtain ⟨h1, h2, h3⟩ := h
  refine ⟨h2, h1, fun i x hx => ?_⟩
  obtain ⟨p, q, h4, h5, h6⟩ := h3 i x hx
  exact ⟨q, p, h5, h4, by rw [h6, add_comm]⟩

theorem Decomposes.map {a b c : List K} (f : K → K) (hf : ∀ x y, f (x + y) = f x + f y) (h : Decomposes a b c) :
    Decomposes (a.map f) (b.map f) (c.map f) := by
  obtain ⟨h1, h2, h3⟩ := h
  refine ⟨by simp [h1], by simp [h2], fun i x hx => ?_⟩
  rw [List.getElem?_map, Option.map_eq_some_iff] at hx
  obtain ⟨y, hy, rfl⟩ := hx
  obtain ⟨p, q, h4, h5, h6⟩ := h3 i y hy
  exact ⟨f p, f q, by rw [List.getElem?_map, h4]; rfl, by rw [List.getElem?_map, h5]; rfl, by rw [h6, hf]⟩

theorem go_zipWith (f : K → K → K) : ∀ (m a b : List K), a.length = b.length →
    maskVector.go m (List.zipWith f a b) = List.zipWith f (maskVector.go m a) (maskVector.go m b)
  | [], _, _, _ => by simp [maskVector.go]
  | _ :: _, [], [], _ => by simp [maskVector.go]
  | _ :: _, [], _ :: _, h => by simp at h
  | _ :: _, _ :: _, [], h => by simp at h
  | k :: m, x :: a, y :: b, h => by
    have ih := go_zipWith f m a b (by simpa using h)
    simp only [List.zipWith_cons_cons, maskVector.go]
    by_cases hk : k = 1
    · rw [if_pos hk, if_pos hk, if_pos hk, List.zipWith_cons_cons, ih]
    · rw [if_neg hk, if_neg hk, if_neg hk, ih]

theorem go_length_eq {α β : Type} : ∀ (m : List K) (a : List α) (b : List β), a.length = b.length →
    (maskVector.go m a).length = (maskVector.go m b).length
  | [], _, _, _ => by simp [maskVector.go]
  | _ :: _, [], [], _ => by simp [maskVector.go]
  | _ :: _, [], _ :: _, h => by simp at h
  | _ :: _, _ :: _, [], h => by simp at h
  | k :: m, x :: a, y :: b, h => by
    have ih := go_length_eq m a b (by simpa using h)
    simp only [maskVector.go]
    by_cases hk : k = 1
    · rw [if_pos hk, if_pos hk]; simp [ih]
    · rw [if_neg hk, if_neg hk, ih]

theorem go_subset {α : Type} : ∀ (m : List K) (a : List α), ∀ x ∈ maskVector.go m a, x ∈ a
  | [], _, x, h => by simp [maskVector.go] at h
  | _ :: _, [], x, h => by simp [maskVector.go] at h
  | k :: m, y :: a, x, h => by
    simp only [maskVector.go] at h
    by_cases hk : k = 1
    · rw [if_pos hk] at h
      rcases List.mem_cons.1 h with h | h
      · simp [h]
      · exact List.mem_cons_of_mem _ (go_subset m a x h)
    · rw [if_neg hk] at h
      exact List.mem_cons_of_mem _ (go_subset m a x h)

theorem Decomposes.mask {a b c : List K} (m : List K) (h : Decomposes a b c) :
    Decomposes (maskVector.go m a) (maskVector.go m b) (maskVector.go m c) := by
  obtain ⟨h1, h2, h3⟩ := decomposes_iff.1 h
  refine decomposes_iff.2 ⟨go_length_eq m b a h1, go_length_eq m c a h2, ?_⟩
  rw [← go_zipWith _ m b c (by omega), ← h3]

/-- The invariant of every history. -/
structure Inv (s : Spc K) : Prop where
  size : s.raw.length = s.axis.length
  dec : s.removed = true → Decomposes s.raw s.cont s.nocont
  zero : s.removed = true → s.method = "zero" → ∀ x ∈ s.cont, x = 0
  rawm : s.removed = true → s.method = "raw" → ∀ x ∈ s.nocont, x = 0

theorem inv_of_not_removed {s : Spc K} (h : s.raw.length = s.axis.length) (hr : s.removed = false) : Inv s :=
  ⟨h, fun h' => by simp [hr] at h', fun h' => by simp [hr] at h', fun h' => by simp [hr] at h'⟩

theorem inv_reset {s : Spc K} (h : s.raw.length = s.axis.length) : Inv (reset s) := inv_of_not_removed h rfl

theorem zeros_sub {a : List K} : ∀ x ∈ sub a a, x = 0 := by
  intro x hx
  rw [sub, List.zipWith_self, List.mem_map] at hx
  obtain ⟨y, _, rfl⟩ := hx
  ring

theorem inv_fill {s : Spc K} (h : s.raw.length = s.axis.length) (hr : s.removed = false) (w : List K)
    (hz : s.method = "zero" → w = s.raw) (hw : s.method = "raw" → ∀ x ∈ w, x = 0) : Inv (fill s w).1 := by
  unfold fill
  by_cases hl : w.length ≠ s.raw.length
  · rw [if_pos hl]; exact inv_of_not_removed h hr
  · rw [if_neg hl]
    refine ⟨h, fun _ => decomposes_sub (not_not.1 hl), fun _ hm => ?_, fun _ hm => hw hm⟩
    show ∀ x ∈ sub s.raw w, x = 0
    rw [hz hm]
    exact zeros_sub

variable (med : List K → List K → K → Bool → Res (List K))

theorem inv_estimate {s : Spc K} (h : s.raw.length = s.axis.length) (hr : s.removed = false) : Inv (estimate med s).1 := by
  unfold estimate
  by_cases h1 : s.method = "irregularSamplingMedian"
  · rw [if_pos h1]
    cases hmed : med s.axis s.raw s.win s.even with
    | ok w =>
      exact inv_fill (s := reset s) h rfl w (fun hm => by simp [reset, h1] at hm) (fun hm => by simp [reset, h1] at hm)
    | throw e => exact inv_reset h
    | ub => exact inv_of_not_removed h hr
  rw [if_neg h1]
  by_cases h2 : s.method = "raw"
  · rw [if_pos h2]
    exact inv_fill h hr _ (fun hm => by rw [h2] at hm; simp at hm) (fun _ x hx => List.eq_of_mem_replicate hx)
  rw [if_neg h2]
  by_cases h3 : s.method = "zero"
  · rw [if_pos h3]
    exact inv_fill h hr _ (fun _ => rfl) (fun hm => absurd hm h2)
  rw [if_neg h3]
  by_cases h4 : s.method = "manual"
  · rw [if_pos h4]
    by_cases h5 : s.cont.length ≠ s.raw.length
    · rw [if_pos h5]; exact inv_of_not_removed h hr
    · rw [if_neg h5]
      exact ⟨h, fun _ => (decomposes_sub (not_not.1 h5)).symm, fun _ hm => absurd hm h3, fun _ hm => absurd hm h2⟩
  rw [if_neg h4]
  exact inv_of_not_removed h hr

theorem inv_lazy {s : Spc K} (h : Inv s) : Inv (lazy med s).1 := by
  unfold lazy
  cases hr : s.removed with
  | true => exact h
  | false => exact inv_estimate med h.size hr

theorem inv_getFlux {s : Spc K} (h : Inv s) : Inv (getFlux med s).1 := by
  unfold getFlux
  cases s.type
  · exact h
  · exact inv_lazy med h
  · exact inv_lazy med h

theorem fill_keeps {s : Spc K} (w : List K) : (fill s w).1.raw = s.raw ∧ (fill s w).1.axis = s.axis ∧
    (fill s w).1.type = s.type ∧ (fill s w).1.method = s.method ∧ (fill s w).1.win = s.win ∧
    (fill s w).1.even = s.even := by
  unfold fill
  split <;> exact ⟨rfl, rfl, rfl, rfl, rfl, rfl⟩

theorem lazy_keeps (s : Spc K) : (lazy med s).1.raw = s.raw ∧ (lazy med s).1.axis = s.axis ∧
    (lazy med s).1.type = s.type ∧ (lazy med s).1.method = s.method ∧ (lazy med s).1.win = s.win ∧
    (lazy med s).1.even = s.even := by
  unfold lazy
  cases hr : s.removed with
  | true => exact ⟨rfl, rfl, rfl, rfl, rfl, rfl⟩
  | false =>
    simp only [Bool.false_eq_true, if_false]
    unfold estimate
    repeat' split
    all_goals first
      | exact ⟨rfl, rfl, rfl, rfl, rfl, rfl⟩
      | exact fill_keeps (s := reset s) _
      | exact fill_keeps (s := s) _

theorem getFlux_keeps (s : Spc K) : (getFlux med s).1.raw = s.raw ∧ (getFlux med s).1.axis = s.axis ∧
    (getFlux med s).1.type = s.type ∧ (getFlux med s).1.method = s.method := by
  unfold getFlux
  split
  · exact ⟨rfl, rfl, rfl, rfl⟩
  · obtain ⟨h1, h2, h3, h4, _⟩ := lazy_keeps med s; exact ⟨h1, h2, h3, h4⟩
  · obtain ⟨h1, h2, h3, h4, _⟩ := lazy_keeps med s; exact ⟨h1, h2, h3, h4⟩

/-- A successful lazy estimation leaves the components computed. -/
theorem lazy_ok {s : Spc K} (h : (lazy med s).2 = .ok ()) : (lazy med s).1.removed = true := by
  unfold lazy at h ⊢
  cases hr : s.removed with
  | true => exact hr
  | false =>
    simp only [hr, Bool.false_eq_true, if_false] at h ⊢
    unfold estimate fill at h ⊢
    repeat' split at h
    all_goals simp_all

theorem overwrite_length (l : List K) (ws : List (Nat × K)) : (overwrite l ws).length = l.length := by
  unfold overwrite
  induction ws generalizing l with
  | nil => rfl
  | cons w ws ih => rw [List.foldl_cons, ih, List.length_set]

theorem setSelected_size {s : Spc K} (ws : List (Nat × K)) (h : s.raw.length = s.axis.length) :
    (setSelected s ws).raw.length = (setSelected s ws).axis.length := by
  unfold setSelected
  cases s.type
  · simpa [overwrite_length] using h
  · exact h
  · exact h

theorem smooth_length {width : Nat} {l : List K} {r : Bool × List K} (h : Flux.applyMeanSmooth width l = .ok r) :
    r.2.length = l.length := by
  unfold Flux.applyMeanSmooth Flux.applySmooth at h
  split at h
  · cases h; rfl
  split at h
  · cases h; rfl
  obtain ⟨t, h1, h2⟩ := Res.bind_eq_ok.1 h
  cases h2
  exact Res.tab_length _ h1

theorem inv_setMethod {s : Spc K} (h : Inv s) (m : String) : Inv (setMethod s m) := by
  unfold setMethod
  split
  · exact inv_reset (s := { s with method := m }) h.size
  · exact h

theorem inv_setWin {s : Spc K} (h : Inv s) (w : K) : Inv (setWin s w) := by
  unfold setWin
  by_cases hc : s.win ≠ w ∧ s.method = "irregularSamplingMedian"
  · simp only [if_pos hc]
    exact inv_of_not_removed h.size rfl
  · simp only [if_neg hc]
    exact ⟨h.size, h.dec, h.zero, h.rawm⟩

theorem inv_setEven {s : Spc K} (h : Inv s) (b : Bool) : Inv (setEven s b) := by
  unfold setEven
  by_cases hc : s.even ≠ b ∧ s.method = "irregularSamplingMedian"
  · simp only [if_pos hc]
    exact inv_of_not_removed h.size rfl
  · simp only [if_neg hc]
    exact ⟨h.size, h.dec, h.zero, h.rawm⟩

theorem inv_setFlux {s : Spc K} (h : Inv s) (l : List K) (b : Bool) : Inv (setFlux s l b).1 := by
  unfold setFlux
  split
  · exact h
  · rename_i hc
    exact inv_of_not_removed (by by_contra hl; exact hc (Or.inl hl)) rfl

theorem inv_map {s : Spc K} (h : Inv s) (hr : s.removed = true) (f : K → K) (hf : ∀ x y, f (x + y) = f x + f y) :
    Inv { s with raw := s.raw.map f, cont := s.cont.map f, nocont := s.nocont.map f } := by
  have hf0 : f 0 = 0 := by have := hf 0 0; rw [add_zero] at this; linarith
  refine ⟨by simpa using h.size, fun _ => (h.dec hr).map f hf, fun _ hm x hx => ?_, fun _ hm x hx => ?_⟩
  · obtain ⟨y, hy, rfl⟩ := List.mem_map.1 hx
    rw [h.zero hr hm y hy, hf0]
  · obtain ⟨y, hy, rfl⟩ := List.mem_map.1 hx
    rw [h.rawm hr hm y hy, hf0]

theorem maskVector_cases {α : Type} (m : List K) (v : List α) :
    (m.length ≠ v.length ∧ maskVector m v = .throw .INTERNAL_ERROR) ∨
    (m.length = v.length ∧ maskVector m v = .ok (maskVector.go m v)) := by
  unfold maskVector
  by_cases h : m.length ≠ v.length
  · exact Or.inl ⟨h, if_pos h⟩
  · exact Or.inr ⟨not_not.1 h, if_neg h⟩

theorem inv_maskCopy {s : Spc K} (h : Inv s) (m : List K) : Inv (maskCopy s m).1 := by
  unfold maskCopy
  rcases maskVector_cases m s.axis with ⟨h1, h2⟩ | ⟨h1, h2⟩
  · rw [h2]; exact h
  have hsz := h.size
  rcases maskVector_cases m s.raw with ⟨h3, h4⟩ | ⟨h3, h4⟩
  · omega
  rw [h2, h4]
  simp only
  cases hr : s.removed with
  | false =>
    simp only [Bool.false_eq_true, if_false]
    exact inv_of_not_removed (go_length_eq m _ _ hsz) rfl
  | true =>
    have hd := h.dec hr
    simp only [if_true]
    rcases maskVector_cases m s.cont with ⟨h5, _⟩ | ⟨h5, h6⟩
    · have := hd.1; omega
    rcases maskVector_cases m s.nocont with ⟨h7, _⟩ | ⟨h7, h8⟩
    · have := hd.2.1; omega
    rw [h6, h8]
    exact ⟨go_length_eq m _ _ hsz, fun _ => hd.mask m, fun _ hm x hx => h.zero hr hm x (go_subset m _ x hx),
      fun _ hm x hx => h.rawm hr hm x (go_subset m _ x hx)⟩

theorem inv_step {s : Spc K} (h : Inv s) (o : Op K) : Inv (step med s o).1 := by
  have hg := inv_getFlux med h
  have hgs := hg.size
  cases o with
  | setFlux l b => exact inv_setFlux h l b
  | setAxes a l =>
    show Inv (setAxes s a l).1
    unfold setAxes
    by_cases hc : l.length ≠ a.length ∨ a = []
    · rw [if_pos hc]; exact h
    · rw [if_neg hc]
      unfold setFlux
      rw [if_neg (by rintro (hl | ⟨_, ha⟩); exacts [hc (Or.inl hl), hc (Or.inr ha)])]
      exact inv_of_not_removed (by by_contra hl; exact hc (Or.inl hl)) rfl
  | setAxis a =>
    show Inv (setAxis med s a).1
    unfold setAxis
    cases hgf : getFlux med s with
    | mk s' r =>
      rw [hgf] at hg hgs
      cases r with
      | throw e => exact hg
      | ub => exact hg
      | ok f =>
        simp only
        by_cases hl : a.length ≠ f.length
        · rw [if_pos hl]; exact hg
        · rw [if_neg hl]
          have hf : f.length = s'.raw.length := by
            unfold getFlux at hgf
            cases ht : s.type with
            | raw => rw [ht] at hgf; cases hgf; rfl
            | continuumOnly =>
              rw [ht] at hgf
              simp only [getCont, Prod.mk.injEq] at hgf
              obtain ⟨e1, e2⟩ := hgf
              obtain ⟨u, e3, e4⟩ := Res.bind_eq_ok.1 e2
              have := lazy_ok med e3
              rw [e1] at this e4
              cases e4
              exact (hg.dec this).1
            | noContinuum =>
              rw [ht] at hgf
              simp only [getNoCont, Prod.mk.injEq] at hgf
              obtain ⟨e1, e2⟩ := hgf
              obtain ⟨u, e3, e4⟩ := Res.bind_eq_ok.1 e2
              have := lazy_ok med e3
              rw [e1] at this e4
              cases e4
              exact (hg.dec this).2.1
          exact ⟨by show s'.raw.length = a.length; omega, hg.dec, hg.zero, hg.rawm⟩
  | setType t => exact ⟨h.size, h.dec, h.zero, h.rawm⟩
  | setWin w => exact inv_setWin h w
  | setEven b => exact inv_setEven h b
  | setMethod m => exact inv_setMethod h m
  | setManual c =>
    show Inv (setManual s c).1
    unfold setManual
    split
    · exact inv_of_not_removed h.size rfl
    · exact inv_of_not_removed h.size rfl
  | invert =>
    show Inv (invert s)
    unfold invert
    split
    · rename_i hr; exact inv_map h hr (fun x => -x) (fun x y => by ring)
    · rename_i hr; exact inv_of_not_removed (by simpa using h.size) (by simpa using hr)
  | amplitude c =>
    show Inv (amplitude s c)
    unfold amplitude
    split
    · rename_i hr; exact inv_map h hr (fun x => x * c) (fun x y => by ring)
    · rename_i hr; exact inv_of_not_removed (by simpa using h.size) (by simpa using hr)
  | correct ws =>
    show Inv (correct med s ws).1
    unfold correct
    cases hgf : getFlux med s with
    | mk s' r =>
      rw [hgf] at hg hgs
      cases r with
      | throw e => exact hg
      | ub => exact hg
      | ok f =>
        simp only
        split
        · exact hg
        split
        · exact hg
        · exact inv_reset (setSelected_size ws hgs)
  | initContinuum width m win even =>
    show Inv (initContinuum med s width m win even).1
    unfold initContinuum
    cases hgf : getFlux med s with
    | mk s' r =>
      rw [hgf] at hg hgs
      cases r with
      | throw e => exact hg
      | ub => exact hg
      | ok f =>
        simp only
        split
        · exact hg
        cases hsm : Flux.applyMeanSmooth (width : Int) s'.raw with
        | throw e => exact ⟨hg.size, hg.dec, hg.zero, hg.rawm⟩
        | ub => exact hg
        | ok r =>
          have hl := smooth_length hsm
          have hgs' : s'.raw.length = s'.axis.length := hgs
          exact inv_setEven (inv_setWin (inv_setMethod (inv_reset (by show r.2.length = s'.axis.length; omega)) m) win) even
  | maskCopy m => exact inv_maskCopy h m
  | getFlux => exact hg
  | getCont => exact inv_lazy med h
  | getNoCont => exact inv_lazy med h

theorem inv_run {s : Spc K} (h : Inv s) (ops : List (Op K)) : Inv (run med s ops) := by
  unfold run
  induction ops generalizing s with
  | nil => exact h
  | cons o os ih => exact ih (inv_step med h o)

theorem inv_make {axis flux : List K} {s : Spc K} (h : make axis flux = .ok s) : Inv s := by
  unfold make at h
  split at h
  · cases h
  · rename_i hv
    cases h
    refine inv_of_not_removed ?_ rfl
    simp only [Flux.isValid, List.length_map] at hv
    rw [Bool.not_eq_false, Bool.and_eq_true, Bool.and_eq_true, decide_eq_true_iff] at hv
    exact hv.1.1.symm

/-- **C43.** After any history of calls on a spectrum, when the continuum can be obtained, the continuum-subtracted
flux can be obtained too (in either order), both have the size of the raw flux, and the raw flux, which the two getters
leave unchanged, is their sum sample by sample. Whatever the estimator `med` does. -/
theorem C43_decomposition (axis flux : List K) (s0 : Spc K) (h0 : make axis flux = .ok s0) (ops : List (Op K)) :
    (∀ c, (getCont med (run med s0 ops)).2 = .ok c →
      ∃ w, (getNoCont med (getCont med (run med s0 ops)).1).2 = .ok w ∧
        Decomposes (getRaw (run med s0 ops)) c w ∧
        getRaw (getNoCont med (getCont med (run med s0 ops)).1).1 = getRaw (run med s0 ops)) ∧
    (∀ w, (getNoCont med (run med s0 ops)).2 = .ok w →
      ∃ c, (getCont med (getNoCont med (run med s0 ops)).1).2 = .ok c ∧
        Decomposes (getRaw (run med s0 ops)) c w ∧
        getRaw (getCont med (getNoCont med (run med s0 ops)).1).1 = getRaw (run med s0 ops)) := by
  set s := run med s0 ops
  have hi : Inv s := inv_run med (inv_make h0) ops
  have hl := inv_lazy med hi
  have hk := (lazy_keeps med s).1
  have again : ∀ t : Spc K, t.removed = true → lazy med t = (t, .ok ()) := by
    intro t ht; simp [lazy, ht]
  constructor
  · intro c hc
    obtain ⟨u, h1, h2⟩ := Res.bind_eq_ok.1 hc
    cases h2
    have hr := lazy_ok med h1
    have ha := again _ hr
    refine ⟨(lazy med s).1.nocont, ?_, ?_, ?_⟩
    · simp only [getNoCont, getCont, ha]; rfl
    · have := hl.dec hr; rwa [hk] at this
    · simp only [getNoCont, getCont, ha]; exact hk
  · intro w hw
    obtain ⟨u, h1, h2⟩ := Res.bind_eq_ok.1 hw
    cases h2
    have hr := lazy_ok med h1
    have ha := again _ hr
    refine ⟨(lazy med s).1.cont, ?_, ?_, ?_⟩
    · simp only [getNoCont, getCont, ha]; rfl
    · have := hl.dec hr; rwa [hk] at this
    · simp only [getNoCont, getCont, ha]; exact hk

/-- **C43.** The selected flux is the component of the last type selected. -/
theorem C43_selected (s : Spc K) (t : FluxType) :
    getFlux med (step med s (.setType t)).1 = match t with
      | .raw => ((step med s (.setType t)).1, .ok (getRaw s))
      | .continuumOnly => getCont med (step med s (.setType t)).1
      | .noContinuum => getNoCont med (step med s (.setType t)).1 := by
  cases t <;> rfl

/-- **C43.** Replacing the flux selects the raw flux, and forgets the previous continuum: the next continuum is that of
the new flux. -/
theorem C43_set_flux (s : Spc K) (l : List K) (b : Bool) (h : (step med s (.setFlux l b)).2 = .ok ()) :
    getFlux med (step med s (.setFlux l b)).1 = ((step med s (.setFlux l b)).1, .ok l) ∧
    getCont med (step med s (.setFlux l b)).1 =
      getCont med { s with raw := l, type := .raw, removed := false, cont := [], nocont := [] } := by
  simp only [step, setFlux] at h ⊢
  split at h
  · cases h
  · rename_i hc
    rw [if_neg hc]
    exact ⟨rfl, rfl⟩

/-- **C43, methods.** For the method `zero` the continuum is null, for `raw` the continuum-subtracted flux is null, after
any history. -/
theorem C43_zero_raw (axis flux : List K) (s0 : Spc K) (h0 : make axis flux = .ok s0) (ops : List (Op K)) :
    ((run med s0 ops).method = "zero" → ∀ c, (getCont med (run med s0 ops)).2 = .ok c → ∀ x ∈ c, x = 0) ∧
    ((run med s0 ops).method = "raw" → ∀ w, (getNoCont med (run med s0 ops)).2 = .ok w → ∀ x ∈ w, x = 0) := by
  have hl := inv_lazy med (inv_run med (inv_make h0) ops)
  have hk := (lazy_keeps med (run med s0 ops)).2.2.2.1
  constructor
  · intro hm c hc
    obtain ⟨u, h1, h2⟩ := Res.bind_eq_ok.1 hc
    cases h2
    exact hl.zero (lazy_ok med h1) (by rw [hk, hm])
  · intro hm c hc
    obtain ⟨u, h1, h2⟩ := Res.bind_eq_ok.1 hc
    cases h2
    exact hl.rawm (lazy_ok med h1) (by rw [hk, hm])

/-- With these two methods the components can always be obtained. -/
theorem C43_zero_raw_available (axis flux : List K) (s0 : Spc K) (h0 : make axis flux = .ok s0) (ops : List (Op K))
    (hm : (run med s0 ops).method = "zero" ∨ (run med s0 ops).method = "raw") :
    ∃ c, (getCont med (run med s0 ops)).2 = .ok c := by
  have hi := inv_run med (inv_make h0) ops
  have : (lazy med (run med s0 ops)).2 = .ok () := by
    unfold lazy
    cases hr : (run med s0 ops).removed with
    | true => rfl
    | false =>
      simp only [Bool.false_eq_true, if_false]
      unfold estimate
      rcases hm with hm | hm
      · rw [if_neg (by rw [hm]; decide), if_neg (by rw [hm]; decide), if_pos hm]
        simp [fill]
      · rw [if_neg (by rw [hm]; decide), if_pos hm]
        simp [fill, hi.size]
  exact ⟨_, by show ((lazy med (run med s0 ops)).2 >>= fun _ => _) = _; rw [this]; rfl⟩

/-- The operations that neither change the flux nor the method. -/
def Harmless : Op K → Prop
  | .setType _ => True
  | .setWin _ => True
  | .setEven _ => True
  | .setMethod m => m = "manual"
  | .getFlux => True
  | .getCont => True
  | .getNoCont => True
  | _ => False

/-- **C43, manual continuum.** A continuum of the right size set by hand is the one returned, and the
continuum-subtracted flux is the raw flux minus it, after any selection of types, window and reflection. -/
theorem C43_manual (s : Spc K) (hs : s.raw.length = s.axis.length) (c : List K) (hc : c.length = s.axis.length)
    (ops : List (Op K)) (hops : ∀ o ∈ ops, Harmless o) :
    (step med s (.setManual c)).2 = .ok () ∧
    (getCont med (run med s (.setManual c :: ops))).2 = .ok c ∧
    (getNoCont med (run med s (.setManual c :: ops))).2 = .ok (List.zipWith (· - ·) s.raw c) := by
  have h1 : step med s (.setManual c) = ({ s with method := "manual", removed := false, cont := c, nocont := [] }, .ok ()) := by
    simp [step, setManual, hc, reset]
  have key : ∀ (ops : List (Op K)) (t : Spc K), (∀ o ∈ ops, Harmless o) →
      t.raw = s.raw ∧ t.method = "manual" ∧ t.cont = c ∧ (t.removed = true → t.nocont = sub s.raw c) →
      (let u := run med t ops; u.raw = s.raw ∧ u.method = "manual" ∧ u.cont = c ∧ (u.removed = true → u.nocont = sub s.raw c)) := by
    have hlazy : ∀ (t : Spc K), t.raw = s.raw ∧ t.method = "manual" ∧ t.cont = c ∧ (t.removed = true → t.nocont = sub s.raw c) →
        (lazy med t).1.raw = s.raw ∧ (lazy med t).1.method = "manual" ∧ (lazy med t).1.cont = c ∧
          ((lazy med t).1.removed = true → (lazy med t).1.nocont = sub s.raw c) := by
      rintro t ⟨a1, a2, a3, a4⟩
      unfold lazy
      cases hr : t.removed with
      | true => exact ⟨a1, a2, a3, fun _ => a4 hr⟩
      | false =>
        simp only [Bool.false_eq_true, if_false]
        unfold estimate
        rw [if_neg (by rw [a2]; decide), if_neg (by rw [a2]; decide), if_neg (by rw [a2]; decide), if_pos a2,
          if_neg (by rw [a1, a3]; omega)]
        exact ⟨a1, a2, a3, fun _ => by simp only [a1, a3]⟩
    intro ops
    induction ops with
    | nil => intro t _ h; exact h
    | cons o os ih =>
      intro t ho h
      refine ih _ (fun o' h' => ho o' (List.mem_cons_of_mem _ h')) ?_
      have hh := ho o (by simp)
      obtain ⟨a1, a2, a3, a4⟩ := h
      beta_reduce
      cases o with
      | setType ty => exact ⟨a1, a2, a3, a4⟩
      | setWin w =>
        have : setWin t w = { t with win := w } := by
          unfold setWin; rw [if_neg (by rw [a2]; rintro ⟨_, h⟩; revert h; decide)]
        rw [show (step med t (.setWin w)).1 = setWin t w from rfl, this]
        exact ⟨a1, a2, a3, a4⟩
      | setEven b =>
        have : setEven t b = { t with even := b } := by
          unfold setEven; rw [if_neg (by rw [a2]; rintro ⟨_, h⟩; revert h; decide)]
        rw [show (step med t (.setEven b)).1 = setEven t b from rfl, this]
        exact ⟨a1, a2, a3, a4⟩
      | setMethod m =>
        have hm : m = "manual" := hh
        have : setMethod t m = t := by unfold setMethod; rw [if_neg (by rw [a2, hm]; simp)]
        rw [show (step med t (.setMethod m)).1 = setMethod t m from rfl, this]
        exact ⟨a1, a2, a3, a4⟩
      | getFlux =>
        rw [show (step med t .getFlux).1 = (getFlux med t).1 from rfl]
        unfold getFlux
        split
        · exact ⟨a1, a2, a3, a4⟩
        · exact hlazy t ⟨a1, a2, a3, a4⟩
        · exact hlazy t ⟨a1, a2, a3, a4⟩
      | getCont => exact hlazy t ⟨a1, a2, a3, a4⟩
      | getNoCont => exact hlazy t ⟨a1, a2, a3, a4⟩
      | setFlux _ _ => exact absurd hh (by simp [Harmless])
      | setAxes _ _ => exact absurd hh (by simp [Harmless])
      | setAxis _ => exact absurd hh (by simp [Harmless])
      | setManual _ => exact absurd hh (by simp [Harmless])
      | invert => exact absurd hh (by simp [Harmless])
      | amplitude _ => exact absurd hh (by simp [Harmless])
      | correct _ => exact absurd hh (by simp [Harmless])
      | initContinuum _ _ _ _ => exact absurd hh (by simp [Harmless])
      | maskCopy _ => exact absurd hh (by simp [Harmless])
  have h2 : run med s (.setManual c :: ops) = run med { s with method := "manual", removed := false, cont := c, nocont := [] } ops := by
    show run med (step med s (.setManual c)).1 ops = _
    rw [h1]
  rw [h2]
  obtain ⟨b1, b2, b3, b4⟩ := key ops { s with method := "manual", removed := false, cont := c, nocont := [] } hops
    ⟨rfl, rfl, rfl, fun h => by simp at h⟩
  generalize run med { s with method := "manual", removed := false, cont := c, nocont := [] } ops = u at b1 b2 b3 b4
  have hl : (lazy med u).2 = .ok () ∧ (lazy med u).1.cont = c ∧ (lazy med u).1.nocont = sub s.raw c := by
    unfold lazy
    cases hr : u.removed with
    | true => exact ⟨rfl, b3, b4 hr⟩
    | false =>
      simp only [Bool.false_eq_true, if_false]
      unfold estimate
      rw [if_neg (by rw [b2]; decide), if_neg (by rw [b2]; decide), if_neg (by rw [b2]; decide), if_pos b2,
        if_neg (by rw [b1, b3]; omega)]
      exact ⟨rfl, b3, by simp only [b1, b3]⟩
  obtain ⟨c1, c2, c3⟩ := hl
  refine ⟨by rw [h1], ?_, ?_⟩
  · simp only [getCont, c1, Res.bind_ok, c2]
  · simp only [getNoCont, c1, Res.bind_ok, c3]; rfl

/-- A scaling or an inversion between the setting of a manual continuum and its first use is not applied to it, though it
is applied after its first use; a change of the axis leaves the continuum of the old axis. -/
theorem C43_stale_counterexamples :
    (getCont (fun _ _ _ _ => .ub) (run (fun _ _ _ _ => .ub) (⟨[1, 2], [1, 1], [], [], false, "", -1, true, .raw⟩ : Spc ℚ)
      [.setManual [1, 1], .amplitude 2])).2 = .ok [1, 1] ∧
    (getCont (fun _ _ _ _ => .ub) (run (fun _ _ _ _ => .ub) (⟨[1, 2], [1, 1], [], [], false, "", -1, true, .raw⟩ : Spc ℚ)
      [.setManual [1, 1], .getCont, .amplitude 2])).2 = .ok [2, 2] ∧
    (getNoCont (fun a _ _ _ => .ok a) (run (fun a _ _ _ => .ok a) (⟨[1, 2], [1, 1], [], [], false, "irregularSamplingMedian", -1, true, .raw⟩ : Spc ℚ)
      [.getCont, .setAxis [3, 4]])).2 = .ok [1, 2] := by decide +kernel

/-- A correction of a component other than the raw flux is lost: the component is estimated again from the raw flux. -/
theorem C43_correction_lost :
    (getNoCont (fun _ _ _ _ => .ub) (run (fun _ _ _ _ => .ub) (⟨[1, 2], [5, 5], [], [], false, "zero", -1, true, .noContinuum⟩ : Spc ℚ)
      [.correct [(0, 7)]])).2 = .ok [5, 5] := by decide +kernel

example : make [1, 2, 3] [4, 5, (6 : ℚ)] = .ok ⟨[1, 2, 3], [4, 5, 6], [], [], false, "", -1, true, .raw⟩ ∧
    (getCont (fun _ _ _ _ => .ok [1, 1, 1]) (run (fun _ _ _ _ => .ok [1, 1, 1])
      (⟨[1, 2, 3], [4, 5, 6], [], [], false, "", -1, true, .raw⟩ : Spc ℚ)
      [.setMethod "irregularSamplingMedian", .getFlux, .invert, .amplitude 2])).2 = .ok [-9, -11, -13] ∧
    (getCont (fun _ _ _ _ => .ok [1, 1, 1]) (run (fun _ _ _ _ => .ok [1, 1, 1])
      (⟨[1, 2, 3], [4, 5, 6], [], [], false, "", -1, true, .raw⟩ : Spc ℚ)
      [.setMethod "irregularSamplingMedian", .getCont, .invert, .amplitude 2])).2 = .ok [-6, -8, -10] := by decide +kernel

end
end Continuum
end Amazed
