import Mathlib.Data.Rat.Floor
import Mathlib.Algebra.Order.Field.Rat
import Mathlib.Algebra.Order.Floor.Ring
import Mathlib.Algebra.Order.BigOperators.Group.List
import Mathlib.Tactic.Linarith
import Mathlib.Tactic.Ring
import Mathlib.Tactic.FieldSimp
import Verif.Model.MedianCont
import Verif.Model.Continuum
import Verif.Props.MedianProps

/-! # C53: the continuum estimated by median smoothing -/

set_option linter.unusedSectionVars false

namespace Amazed
namespace MedCont

section
variable {K : Type} [Field K] [LinearOrder K] [IsStrictOrderedRing K]

/-- All the samples lie between `lo` and `hi`. -/
def Between (lo hi : K) (l : List K) : Prop := ∀ x ∈ l, lo ≤ x ∧ x ≤ hi

theorem find_between (l : List K) (hne : l ≠ []) :
    ∃ m, Median.find l = .ok m ∧ ∀ lo hi, Between lo hi l → lo ≤ m ∧ m ≤ hi := by
  have hs := Median.sortedOf_mergeSort l
  obtain ⟨h1, h2, h3⟩ := Median.C13_find l l.mergeSort hs hne
  have hmem : ∀ (i : Nat) (h : i < l.mergeSort.length), l.mergeSort[i] ∈ l :=
    fun i h => hs.perm.subset (List.getElem_mem h)
  have e1 := hmem _ h1
  have e2 := hmem _ h2
  rw [h3]
  split
  · exact ⟨_, rfl, fun lo hi h => h _ e2⟩
  · split
    · refine ⟨_, rfl, fun lo hi h => ?_⟩
      have a := h _ e1
      have b := h _ e2
      constructor <;> linarith [a.1, a.2, b.1, b.2]
    · exact ⟨_, rfl, fun lo hi h => h _ e1⟩

theorem sum_between {lo hi : K} : ∀ {l : List K}, Between lo hi l → (l.length : K) * lo ≤ l.sum ∧ l.sum ≤ (l.length : K) * hi
  | [], _ => by simp
  | x :: l, h => by
    have a := h x (by simp)
    have b := sum_between (l := l) (fun y hy => h y (by simp [hy]))
    simp only [List.length_cons, List.sum_cons, Nat.cast_add, Nat.cast_one, add_mul, one_mul]
    exact ⟨by linarith [a.1, b.1], by linarith [a.2, b.2]⟩

theorem mean_between (l : List K) (hne : l ≠ []) :
    ∃ m, mean l = .ok m ∧ ∀ lo hi, Between lo hi l → lo ≤ m ∧ m ≤ hi := by
  have hp : (0 : K) < (l.length : K) := by
    have := List.length_pos_iff.2 hne
    exact_mod_cast this
  refine ⟨l.sum / (l.length : K), if_neg hne, fun lo hi h => ?_⟩
  obtain ⟨a, b⟩ := sum_between h
  exact ⟨by rw [le_div_iff₀ hp]; linarith, by rw [div_le_iff₀ hp]; linarith⟩

theorem window_ne_nil {y : List K} {w i : Nat} (hw : 1 ≤ w) (hi : i < y.length) : window y w i ≠ [] := by
  unfold window
  rw [← List.length_pos_iff, List.length_drop, List.length_take]
  omega

theorem window_subset {y : List K} {w i : Nat} : ∀ x ∈ window y w i, x ∈ y :=
  fun _ hx => List.mem_of_mem_take (List.mem_of_mem_drop hx)

theorem tab_total {α : Type} {g : Nat → Res α} {P : α → Prop} (n : Nat) (h : ∀ i, i < n → ∃ a, g i = .ok a ∧ P a) :
    ∃ l, Res.tab g n = .ok l ∧ l.length = n ∧ ∀ x ∈ l, P x := by
  induction n with
  | zero => exact ⟨[], rfl, rfl, by simp⟩
  | succ n ih =>
    obtain ⟨l, h1, h2, h3⟩ := ih (fun i hi => h i (by omega))
    obtain ⟨a, h4, h5⟩ := h n (by omega)
    refine ⟨l ++ [a], by unfold Res.tab; rw [h1, Res.bind_ok, h4, Res.bind_ok], by simp [h2], fun x hx => ?_⟩
    rcases List.mem_append.1 hx with hx | hx
    · exact h3 x hx
    · rw [List.mem_singleton.1 hx]; exact h5

/-- A smoothing by a statistic lying between the bounds of its window keeps the size and the bounds. -/
theorem smooth_between {f : List K → Res K}
    (hf : ∀ l, l ≠ [] → ∃ m, f l = .ok m ∧ ∀ lo hi, Between lo hi l → lo ≤ m ∧ m ≤ hi)
    (y : List K) (w : Nat) (hw : 1 ≤ w) (hov : (y.length : Int) + w ≤ int32Max) :
    ∃ z, smooth f y w = .ok z ∧ z.length = y.length ∧ ∀ lo hi, Between lo hi y → Between lo hi z := by
  unfold smooth
  rw [if_neg (by have : ((w / 2 : Nat) : Int) + ((w - 2 * (w / 2) : Nat) : Int) ≤ w := by omega
                 omega)]
  obtain ⟨z, h1, h2, h3⟩ := tab_total (g := fun i => f (window y w i))
    (P := fun x => ∀ lo hi, Between lo hi y → lo ≤ x ∧ x ≤ hi) y.length (fun i hi => by
      obtain ⟨m, h4, h5⟩ := hf (window y w i) (window_ne_nil hw hi)
      exact ⟨m, h4, fun lo hi' hb => h5 lo hi' (fun x hx => hb x (window_subset x hx))⟩)
  exact ⟨z, h1, h2, fun lo hi hb x hx => h3 x hx lo hi hb⟩

theorem cycle_between (w : Nat) (hw : 1 ≤ w) : ∀ (n : Nat) (y : List K), (y.length : Int) + w ≤ int32Max →
    ∃ z, cycle w n y = .ok z ∧ z.length = y.length ∧ ∀ lo hi, Between lo hi y → Between lo hi z
  | 0, y, _ => ⟨y, rfl, rfl, fun _ _ h => h⟩
  | n + 1, y, h => by
    obtain ⟨z, h1, h2, h3⟩ := smooth_between find_between y w hw h
    obtain ⟨z', h4, h5, h6⟩ := cycle_between w hw n z (by rw [h2]; exact h)
    refine ⟨z', ?_, by omega, fun lo hi hb => h6 lo hi (h3 lo hi hb)⟩
    unfold cycle medianSmooth
    rw [h1, Res.bind_ok, h4]

theorem smoothAll_between (cycles med mean : Nat) (y : List K) (hm : 4 ≤ mean)
    (hov : (y.length : Int) + 2 * med + 1 ≤ int32Max) (hov' : (y.length : Int) + mean ≤ int32Max) :
    ∃ z, smoothAll cycles med mean y = .ok z ∧ z.length = y.length ∧ ∀ lo hi, Between lo hi y → Between lo hi z := by
  unfold smoothAll
  rw [if_neg (by omega)]
  obtain ⟨z1, a1, a2, a3⟩ := cycle_between (2 * med + 1) (by omega) cycles y (by push_cast; omega)
  obtain ⟨z2, b1, b2, b3⟩ := cycle_between (2 * (med / 2) + 1) (by omega) cycles z1 (by push_cast; omega)
  obtain ⟨z3, c1, c2, c3⟩ := smooth_between mean_between z2 (mean / 4) (by omega) (by omega)
  refine ⟨z3, ?_, by omega, fun lo hi h => c3 _ _ (b3 _ _ (a3 _ _ h))⟩
  rw [a1, Res.bind_ok, b1, Res.bind_ok]
  exact c1

/-- Specification: `k` is the index of the first sample that is not null. -/
def IsFirst (l : List K) (k : Nat) : Prop := (∃ x, l[k]? = some x ∧ x ≠ 0) ∧ ∀ j x, j < k → l[j]? = some x → x = 0

/-- Specification: `k` is the index of the last sample that is not null. -/
def IsLast (l : List K) (k : Nat) : Prop := (∃ x, l[k]? = some x ∧ x ≠ 0) ∧ ∀ j x, k < j → l[j]? = some x → x = 0

theorem IsFirst.unique {l : List K} {k k' : Nat} (h : IsFirst l k) (h' : IsFirst l k') : k = k' := by
  obtain ⟨⟨x, hx, hx0⟩, hf⟩ := h
  obtain ⟨⟨x', hx', hx0'⟩, hf'⟩ := h'
  rcases lt_trichotomy k k' with h | h | h
  · exact absurd (hf' k x h hx) hx0
  · exact h
  · exact absurd (hf k' x' h hx') hx0'

theorem IsLast.unique {l : List K} {k k' : Nat} (h : IsLast l k) (h' : IsLast l k') : k = k' := by
  obtain ⟨⟨x, hx, hx0⟩, hf⟩ := h
  obtain ⟨⟨x', hx', hx0'⟩, hf'⟩ := h'
  rcases lt_trichotomy k k' with h | h | h
  · exact absurd (hf k' x' h hx') hx0'
  · exact h
  · exact absurd (hf' k x h hx) hx0

theorem firstNonNull_spec {l : List K} (h : ∃ x ∈ l, x ≠ 0) : IsFirst l (firstNonNull l) := by
  unfold firstNonNull
  cases hf : l.findIdx? (fun x => decide (x ≠ 0)) with
  | none =>
    obtain ⟨x, hx, hx0⟩ := h
    exact absurd (by simpa using List.findIdx?_eq_none_iff.1 hf x hx) hx0
  | some i =>
    obtain ⟨hi, h1, h2⟩ := List.findIdx?_eq_some_iff_getElem.1 hf
    refine ⟨⟨l[i], List.getElem?_eq_getElem hi, by simpa using h1⟩, fun j x hj hx => ?_⟩
    obtain ⟨hj', rfl⟩ := List.getElem?_eq_some_iff.1 hx
    have := h2 j hj
    simpa using this

theorem lastNonNull_spec {l : List K} (h : ∃ x ∈ l, x ≠ 0) : IsLast l (lastNonNull l) := by
  unfold lastNonNull
  cases hf : l.reverse.findIdx? (fun x => decide (x ≠ 0)) with
  | none =>
    obtain ⟨x, hx, hx0⟩ := h
    exact absurd (by simpa using List.findIdx?_eq_none_iff.1 hf x (List.mem_reverse.2 hx)) hx0
  | some i =>
    obtain ⟨hi, h1, h2⟩ := List.findIdx?_eq_some_iff_getElem.1 hf
    simp only [List.length_reverse] at hi
    simp only
    rw [List.getElem_reverse] at h1
    refine ⟨⟨l[l.length - 1 - i], List.getElem?_eq_getElem (by omega), by simpa using h1⟩, fun j x hj hx => ?_⟩
    obtain ⟨hj', rfl⟩ := List.getElem?_eq_some_iff.1 hx
    have := h2 (l.length - 1 - j) (by omega)
    rw [List.getElem_reverse] at this
    simp only [show l.length - 1 - (l.length - 1 - j) = j by omega] at this
    simpa using this

theorem filter_eq_nil_of_null {l : List K} (h : ∀ x ∈ l, x = 0) : (l.filter (fun x => decide (x ≠ 0))) = [] := by
  rw [List.filter_eq_nil_iff]
  intro x hx
  simp [h x hx]

/-- The effective spectrum contains all the samples that are not null. -/
theorem effective_size {l : List K} {k0 k1 : Nat} (h0 : IsFirst l k0) (h1 : IsLast l k1) :
    k0 ≤ k1 ∧ k1 < l.length ∧ (l.filter (fun x => decide (x ≠ 0))).length ≤ k1 - k0 + 1 := by
  obtain ⟨⟨x0, hx0, hn0⟩, hf⟩ := h0
  obtain ⟨⟨x1, hx1, hn1⟩, hl⟩ := h1
  have hk : k0 ≤ k1 := by
    by_contra h
    exact hn0 (hl k0 x0 (by omega) hx0)
  have hlt := (List.getElem?_eq_some_iff.1 hx1).1
  refine ⟨hk, hlt, ?_⟩
  have e : l = l.take k0 ++ ((l.take (k1 + 1)).drop k0 ++ l.drop (k1 + 1)) := by
    rw [← List.append_assoc]
    have : l.take k0 ++ (l.take (k1 + 1)).drop k0 = l.take (k1 + 1) := by
      conv_rhs => rw [← List.take_append_drop k0 (l.take (k1 + 1)), List.take_take]
      rw [min_eq_left (by omega)]
    rw [this, List.take_append_drop]
  have a1 : (l.take k0).filter (fun x => decide (x ≠ 0)) = [] := by
    refine filter_eq_nil_of_null fun x hx => ?_
    obtain ⟨j, hj, rfl⟩ := List.getElem_of_mem hx
    rw [List.length_take] at hj
    rw [List.getElem_take]
    exact hf j _ (by omega) (List.getElem?_eq_getElem (by omega))
  have a2 : (l.drop (k1 + 1)).filter (fun x => decide (x ≠ 0)) = [] := by
    refine filter_eq_nil_of_null fun x hx => ?_
    obtain ⟨j, hj, rfl⟩ := List.getElem_of_mem hx
    rw [List.length_drop] at hj
    rw [List.getElem_drop]
    exact hl (k1 + 1 + j) _ (by omega) (List.getElem?_eq_getElem (by omega))
  conv_lhs => rw [e]
  rw [List.filter_append, List.filter_append, a1, a2]
  simp only [List.nil_append, List.append_nil]
  refine (List.length_filter_le _ _).trans ?_
  rw [List.length_drop, List.length_take]
  omega

theorem eff_length {l : List K} {k0 k1 : Nat} (h : k1 < l.length) (h' : k0 ≤ k1) :
    ((l.take (k1 + 1)).drop k0).length = k1 - k0 + 1 := by
  rw [List.length_drop, List.length_take]; omega

theorem eff_mem {l : List K} {k0 k1 : Nat} {x : K} (h : x ∈ (l.take (k1 + 1)).drop k0) :
    ∃ j, k0 ≤ j ∧ j ≤ k1 ∧ l[j]? = some x := by
  obtain ⟨j, hj, rfl⟩ := List.getElem_of_mem h
  rw [List.length_drop, List.length_take] at hj
  refine ⟨k0 + j, by omega, by omega, ?_⟩
  rw [List.getElem_drop, List.getElem_take]
  exact List.getElem?_eq_getElem (by omega)

/-- The reflection is shorter than the effective spectrum. -/
theorem reflexion_spec {nd mean : Nat} (h : 11 ≤ nd) (hm : 2 ≤ mean) :
    ∃ n, reflexion nd mean = .ok n ∧ 10 ≤ n ∧ n < nd ∧ n ≤ max 10 (5 * mean) := by
  unfold reflexion
  rw [if_neg (by omega)]
  split
  · exact ⟨10, rfl, by omega, by omega, by omega⟩
  split
  · exact ⟨_, rfl, by omega, by omega, by omega⟩
  · exact ⟨_, rfl, by omega, by omega, by omega⟩

theorem evenMirror_spec {y : List K} {n : Nat} (h : n ≤ y.length) :
    ∃ z, evenMirror y n = .ok z ∧ z.length = y.length + 2 * n ∧ ∀ x ∈ z, x ∈ y := by
  refine ⟨_, if_neg (by omega), by simp; omega, fun x hx => ?_⟩
  simp only [List.mem_append, List.mem_reverse] at hx
  rcases hx with (hx | hx) | hx
  · exact List.mem_of_mem_take hx
  · exact hx
  · exact List.mem_reverse.1 (List.mem_of_mem_take hx)

theorem oddMirror_spec {y : List K} {n : Nat} (b e : K) (h : n ≤ y.length) :
    ∃ z, oddMirror y n b e = .ok z ∧ z.length = y.length + 2 * n :=
  ⟨_, if_neg (by omega), by simp; omega⟩

theorem subtract_spec {flux big : List K} {k0 k1 n : Nat} (h : k1 < flux.length) (h0 : k0 ≤ k1)
    (hb : big.length = k1 - k0 + 1 + 2 * n) :
    ∃ l, subtract flux big k0 k1 n = .ok l ∧ l.length = flux.length ∧
      (∀ j, j < k0 ∨ k1 < j → l[j]? = flux[j]?) ∧
      (∀ j x, k0 ≤ j → j ≤ k1 → flux[j]? = some x → ∃ c ∈ big, l[j]? = some (x - c)) := by
  have hg : ∀ j, j < flux.length → ∃ a, (Res.at_ flux j >>= fun x =>
      if j < k0 ∨ k1 < j then .ok x
      else Res.at_ big (j - k0 + n) >>= fun c => .ok (x - c)) = .ok a ∧ True := by
    intro j hj
    rw [Res.at_of_lt hj, Res.bind_ok]
    split
    · exact ⟨_, rfl, trivial⟩
    · rw [Res.at_of_lt (by omega), Res.bind_ok]; exact ⟨_, rfl, trivial⟩
  obtain ⟨l, h1, h2, _⟩ := tab_total flux.length hg
  refine ⟨l, h1, h2, fun j hj => ?_, fun j x hj0 hj1 hx => ?_⟩
  · by_cases hjl : j < flux.length
    · obtain ⟨a, e1, e2⟩ := Res.tab_get _ h1 j hjl
      rw [Res.at_of_lt hjl, Res.bind_ok, if_pos hj] at e2
      cases e2
      rw [e1, List.getElem?_eq_getElem hjl]
    · rw [List.getElem?_eq_none (by omega), List.getElem?_eq_none (by omega)]
  · have hjl := (List.getElem?_eq_some_iff.1 hx).1
    obtain ⟨a, e1, e2⟩ := Res.tab_get _ h1 j hjl
    rw [Res.at_eq_ok.2 hx, Res.bind_ok, if_neg (by omega), Res.at_of_lt (by omega), Res.bind_ok] at e2
    cases e2
    exact ⟨_, List.getElem_mem _, e1⟩

variable [FloorRing K]

/-- **C53, amplitudes.** The width in samples is the nearest integer to the ratio of the width and the resolution. -/
theorem C53_amplitude (width resolution : K) (m : Int) (h : amplitude width resolution = .ok m) :
    resolution ≠ 0 ∧ |width / resolution - m| ≤ 1 / 2 := by
  unfold amplitude at h
  split at h
  · cases h
  · rename_i hr
    simp only at h
    split at h
    · cases h
    · cases h
      refine ⟨hr, ?_⟩
      unfold cround
      split
      · have h1 := Int.floor_le (width / resolution + 1 / 2)
        have h2 := Int.lt_floor_add_one (width / resolution + 1 / 2)
        rw [abs_le]; constructor <;> linarith
      · have h1 := Int.floor_le (-(width / resolution) + 1 / 2)
        have h2 := Int.lt_floor_add_one (-(width / resolution) + 1 / 2)
        rw [abs_le]; push_cast; constructor <;> linarith

/-- **C53.** With a positive number of cycles, a median amplitude of at least one sample, a mean amplitude of at least
four samples and more than ten samples that are not null, the estimator succeeds without leaving its arrays; the result has
the size of the spectrum; outside the effective spectrum `[k0, k1]` (from the first to the last sample that is not null) it
is the flux; with an even reflection the continuum, the flux minus the result, lies at every sample between the smallest
and the largest flux of the effective spectrum. -/
theorem C53_bounds (fit : Nat → Nat → Bool → K) (cfg : Cfg K) (flux out : List K) (resolution : K) (m d : Int)
    (hm : amplitude cfg.meanW resolution = .ok m) (hd : amplitude cfg.medianW resolution = .ok d)
    (hm4 : 4 ≤ m) (hd1 : 1 ≤ d) (hc : 1 ≤ cfg.cycles)
    (hn : 10 < (flux.filter (fun x => decide (x ≠ 0))).length)
    (hov : 4 * (flux.length : Int) + 2 * d + 1 ≤ 2147483647)
    (k0 k1 : Nat) (hk0 : IsFirst flux k0) (hk1 : IsLast flux k1) :
    ∃ l, process fit cfg flux out resolution = .ok (true, l) ∧ l.length = flux.length ∧
      (∀ j, j < k0 ∨ k1 < j → l[j]? = flux[j]?) ∧
      (cfg.even = true → ∀ lo hi, (∀ j x, k0 ≤ j → j ≤ k1 → flux[j]? = some x → lo ≤ x ∧ x ≤ hi) →
        ∀ j x y, k0 ≤ j → j ≤ k1 → flux[j]? = some x → l[j]? = some y → lo ≤ x - y ∧ x - y ≤ hi) := by
  obtain ⟨hle, hlt, hnd⟩ := effective_size hk0 hk1
  have hex : ∃ x ∈ flux, x ≠ 0 := by
    obtain ⟨⟨x, hx, h⟩, _⟩ := hk0; exact ⟨x, List.mem_of_getElem? hx, h⟩
  have e0 : firstNonNull flux = k0 := (firstNonNull_spec hex).unique hk0
  have e1 : lastNonNull flux = k1 := (lastNonNull_spec hex).unique hk1
  have hlen : 11 ≤ flux.length := by have := List.length_filter_le (fun x => decide (x ≠ 0)) flux; omega
  unfold process
  rw [hm, Res.bind_ok, if_neg (by omega)]
  simp only
  rw [if_neg (by omega), hd, Res.bind_ok, if_neg (by omega)]
  simp only [enoughSamples, hn, decide_true, Bool.true_eq_false, if_false, e0, e1]
  obtain ⟨n, hn1, hn2, hn3, _⟩ := reflexion_spec (nd := k1 - k0 + 1) (mean := min m.toNat (flux.length / 2)) (by omega) (by omega)
  rw [hn1, Res.bind_ok]
  have hel := eff_length hlt hle
  have hbig : ∃ big, (if cfg.even = true then evenMirror ((flux.take (k1 + 1)).drop k0) n
      else oddMirror ((flux.take (k1 + 1)).drop k0) n (fit k0 (max (k0 + n) k1) false) (fit (min k0 (k1 - n)) k1 true)) = .ok big ∧
      big.length = k1 - k0 + 1 + 2 * n ∧ (cfg.even = true → ∀ x ∈ big, x ∈ (flux.take (k1 + 1)).drop k0) := by
    by_cases he : cfg.even = true
    · rw [if_pos he]
      obtain ⟨z, a, b, c⟩ := evenMirror_spec (y := (flux.take (k1 + 1)).drop k0) (n := n) (by omega)
      exact ⟨z, a, by omega, fun _ => c⟩
    · rw [if_neg he]
      obtain ⟨z, a, b⟩ := oddMirror_spec (y := (flux.take (k1 + 1)).drop k0) (n := n) (fit k0 (max (k0 + n) k1) false) (fit (min k0 (k1 - n)) k1 true) (by omega)
      exact ⟨z, a, by omega, fun h => absurd h he⟩
  obtain ⟨big, b1, b2, b3⟩ := hbig
  rw [b1, Res.bind_ok]
  obtain ⟨z, c1, c2, c3⟩ := smoothAll_between cfg.cycles.toNat (max (min m.toNat (flux.length / 2)) d.toNat)
    (min m.toNat (flux.length / 2)) big (by omega) (by unfold int32Max; omega) (by unfold int32Max; omega)
  rw [c1, Res.bind_ok]
  obtain ⟨l, d1, d2, d3, d4⟩ := subtract_spec (flux := flux) (big := z) (n := n) hlt hle (by omega)
  rw [d1, Res.bind_ok]
  refine ⟨l, rfl, d2, d3, fun he lo hi hb j x y hj0 hj1 hx hy => ?_⟩
  obtain ⟨c, hc, hcl⟩ := d4 j x hj0 hj1 hx
  rw [hcl] at hy
  cases hy
  have := c3 lo hi (fun x hx => by
    obtain ⟨j, q1, q2, q3⟩ := eff_mem (b3 he x hx)
    exact hb j x q1 q2 q3) c hc
  rw [sub_sub_cancel]
  exact this

/-- **C53.** A constant effective spectrum is its own continuum: with an even reflection the result is null there. -/
theorem C53_constant (fit : Nat → Nat → Bool → K) (cfg : Cfg K) (flux out : List K) (resolution : K) (m d : Int)
    (hm : amplitude cfg.meanW resolution = .ok m) (hd : amplitude cfg.medianW resolution = .ok d)
    (hm4 : 4 ≤ m) (hd1 : 1 ≤ d) (hc : 1 ≤ cfg.cycles) (he : cfg.even = true)
    (hn : 10 < (flux.filter (fun x => decide (x ≠ 0))).length)
    (hov : 4 * (flux.length : Int) + 2 * d + 1 ≤ 2147483647) (c : K)
    (k0 k1 : Nat) (hk0 : IsFirst flux k0) (hk1 : IsLast flux k1)
    (hconst : ∀ j x, k0 ≤ j → j ≤ k1 → flux[j]? = some x → x = c) :
    process fit cfg flux out resolution = .ok (true, List.replicate flux.length 0) := by
  obtain ⟨l, h1, h2, h3, h4⟩ := C53_bounds fit cfg flux out resolution m d hm hd hm4 hd1 hc hn hov k0 k1 hk0 hk1
  rw [h1]
  have : l = List.replicate flux.length 0 := by
    refine List.eq_replicate_iff.2 ⟨h2, fun y hy => ?_⟩
    obtain ⟨j, hj, rfl⟩ := List.getElem_of_mem hy
    have hj' : j < flux.length := by omega
    by_cases hin : j < k0 ∨ k1 < j
    · have := h3 j hin
      rw [List.getElem?_eq_getElem hj, List.getElem?_eq_getElem hj'] at this
      rw [Option.some.inj this]
      rcases hin with hin | hin
      · exact hk0.2 j _ hin (List.getElem?_eq_getElem hj')
      · exact hk1.2 j _ hin (List.getElem?_eq_getElem hj')
    · obtain ⟨a, b⟩ := h4 he c c (fun j x p q r => by rw [hconst j x p q r]; exact ⟨le_rfl, le_rfl⟩) j flux[j] l[j]
        (by omega) (by omega) (List.getElem?_eq_getElem hj') (List.getElem?_eq_getElem hj)
      have e := hconst j flux[j] (by omega) (by omega) (List.getElem?_eq_getElem hj')
      linarith
  rw [this]

/-- **C53.** A mean amplitude of one, two or three samples is never usable: the reflection size has no valid bounds for
one sample, and the window of the last smoothing is empty for two and three (a mean of no sample). -/
theorem C53_small_window (fit : Nat → Nat → Bool → K) (cfg : Cfg K) (flux out : List K) (resolution : K) (m d : Int)
    (hm : amplitude cfg.meanW resolution = .ok m) (hd : amplitude cfg.medianW resolution = .ok d)
    (hm1 : 1 ≤ m) (hm3 : m ≤ 3) (hd1 : 1 ≤ d) (hc : 1 ≤ cfg.cycles)
    (hn : 10 < (flux.filter (fun x => decide (x ≠ 0))).length) :
    process fit cfg flux out resolution = .ub := by
  have hex : ∃ x ∈ flux, x ≠ 0 := by
    cases h : flux.filter (fun x => decide (x ≠ 0)) with
    | nil => rw [h] at hn; simp at hn
    | cons x t =>
      have : x ∈ flux.filter (fun x => decide (x ≠ 0)) := by rw [h]; simp
      exact ⟨x, (List.mem_filter.1 this).1, by simpa using (List.mem_filter.1 this).2⟩
  have hk0 := firstNonNull_spec hex
  have hk1 := lastNonNull_spec hex
  obtain ⟨hle, hlt, hnd⟩ := effective_size hk0 hk1
  have hlen : 11 ≤ flux.length := by have := List.length_filter_le (fun x => decide (x ≠ 0)) flux; omega
  unfold process
  rw [hm, Res.bind_ok, if_neg (by omega)]
  simp only
  rw [if_neg (by omega), hd, Res.bind_ok, if_neg (by omega)]
  simp only [enoughSamples, hn, decide_true, Bool.true_eq_false, if_false]
  generalize hk0e : firstNonNull flux = k0 at *
  generalize hk1e : lastNonNull flux = k1 at *
  by_cases hm1' : m = 1
  · unfold reflexion
    rw [if_pos (by omega)]; rfl
  obtain ⟨n, hn1, hn2, hn3, _⟩ := reflexion_spec (nd := k1 - k0 + 1) (mean := min m.toNat (flux.length / 2)) (by omega) (by omega)
  rw [hn1, Res.bind_ok]
  have hel := eff_length hlt hle
  have hbig : ∃ big, (if cfg.even = true then evenMirror ((flux.take (k1 + 1)).drop k0) n
      else oddMirror ((flux.take (k1 + 1)).drop k0) n (fit k0 (max (k0 + n) k1) false) (fit (min k0 (k1 - n)) k1 true)) = .ok big ∧
      big.length = k1 - k0 + 1 + 2 * n := by
    by_cases he : cfg.even = true
    · rw [if_pos he]
      obtain ⟨z, a, b, c⟩ := evenMirror_spec (y := (flux.take (k1 + 1)).drop k0) (n := n) (by omega)
      exact ⟨z, a, by omega⟩
    · rw [if_neg he]
      obtain ⟨z, a, b⟩ := oddMirror_spec (y := (flux.take (k1 + 1)).drop k0) (n := n) (fit k0 (max (k0 + n) k1) false) (fit (min k0 (k1 - n)) k1 true) (by omega)
      exact ⟨z, a, by omega⟩
  obtain ⟨big, b1, b2⟩ := hbig
  rw [b1, Res.bind_ok]
  have hs : smoothAll cfg.cycles.toNat (max (min m.toNat (flux.length / 2)) d.toNat)
      (min m.toNat (flux.length / 2)) big = .ub := by
    have hcyc : ∀ (w n : Nat) (y : List K), y ≠ [] → cycle w n y = .ub ∨ ∃ z, cycle w n y = .ok z ∧ z ≠ [] := by
      intro w n
      induction n with
      | zero => intro y hy; exact Or.inr ⟨y, rfl, hy⟩
      | succ n ih =>
        intro y hy
        unfold cycle
        by_cases hub : ∃ z, medianSmooth y w = .ok z
        · obtain ⟨z, hz⟩ := hub
          rw [hz, Res.bind_ok]
          refine ih z ?_
          unfold medianSmooth smooth at hz
          split at hz
          · cases hz
          · have := Res.tab_length _ hz
            rw [← List.length_pos_iff, this]
            exact List.length_pos_iff.2 hy
        · left
          have hnt : ∀ e, medianSmooth y w ≠ .throw e := by
            intro e he
            unfold medianSmooth smooth at he
            split at he
            · cases he
            · have hfin : ∀ (k : Nat), Res.tab (fun i => Median.find (window y w i)) k ≠ .throw e := by
                intro k
                induction k with
                | zero => intro h; cases h
                | succ k ihk =>
                  intro h
                  unfold Res.tab at h
                  cases hk : Res.tab (fun i => Median.find (window y w i)) k with
                  | throw e' => rw [hk] at h; cases h; exact ihk hk
                  | ub => rw [hk] at h; cases h
                  | ok l' =>
                    rw [hk, Res.bind_ok] at h
                    by_cases hwe : window y w k = []
                    · rw [hwe] at h; cases h
                    · obtain ⟨mm, h5, _⟩ := find_between _ hwe
                      rw [h5] at h; cases h
              exact hfin _ he
          cases hmm : medianSmooth y w with
          | ok z => exact absurd ⟨z, hmm⟩ hub
          | throw e => exact absurd hmm (hnt e)
          | ub => rfl
    have hbne : big ≠ [] := by rw [← List.length_pos_iff]; omega
    unfold smoothAll
    split
    · rfl
    rcases hcyc (2 * max (min m.toNat (flux.length / 2)) d.toNat + 1) cfg.cycles.toNat big hbne with h | ⟨z, h, hz⟩
    · rw [h]; rfl
    rw [h, Res.bind_ok]
    rcases hcyc (2 * (max (min m.toNat (flux.length / 2)) d.toNat / 2) + 1) cfg.cycles.toNat z hz with h | ⟨z', h, hz'⟩
    · rw [h]; rfl
    rw [h, Res.bind_ok]
    unfold meanSmooth smooth
    split
    · rfl
    · refine Res.tab_ub _ 0 (List.length_pos_iff.2 hz') (fun i hi => absurd hi (by omega)) ?_
      have : min m.toNat (flux.length / 2) / 4 = 0 := by omega
      rw [this]
      simp [window, mean]
  rw [hs]; rfl

/-- **C53, refusals.** Amplitudes below half a sample, or no cycle: the output is left as it was. Ten samples or less that
are not null: the result is null everywhere. -/
theorem C53_refused (fit : Nat → Nat → Bool → K) (cfg : Cfg K) (flux out : List K) (resolution : K) (m d : Int)
    (hm : amplitude cfg.meanW resolution = .ok m) (hd : amplitude cfg.medianW resolution = .ok d) :
    (m ≤ 0 ∨ d ≤ 0 ∨ cfg.cycles ≤ 0 → process fit cfg flux out resolution = .ok (false, out)) ∧
    (1 ≤ m → 1 ≤ d → 1 ≤ cfg.cycles → (flux.filter (fun x => decide (x ≠ 0))).length ≤ 10 →
      process fit cfg flux out resolution = .ok (false, List.replicate flux.length 0)) := by
  unfold process
  simp only [hm, hd, Res.bind_ok]
  constructor
  · intro h
    by_cases h1 : m ≤ 0
    · rw [if_pos h1]
    · rw [if_neg h1]
      by_cases h2 : cfg.cycles ≤ 0
      · rw [if_pos h2]
      · rw [if_neg h2, if_pos (by omega)]
  · intro h1 h2 h3 h4
    rw [if_neg (by omega)]
    rw [if_neg (by omega), if_neg (by omega)]
    simp only [enoughSamples, decide_eq_false_iff_not, not_lt]
    rw [if_pos h4]

/-- **C53, border fits.** For the odd reflection the two border fits always cover the whole effective spectrum, whatever
the reflection size: the result depends on no other fit. -/
theorem C53_border_fits (fit : Nat → Nat → Bool → K) (cfg : Cfg K) (flux out : List K) (resolution : K)
    (k0 k1 : Nat) (hk0 : IsFirst flux k0) (hk1 : IsLast flux k1)
    (hn : 10 < (flux.filter (fun x => decide (x ≠ 0))).length) :
    process fit cfg flux out resolution = process (fun _ _ right => fit k0 k1 right) cfg flux out resolution := by
  obtain ⟨hle, hlt, hnd⟩ := effective_size hk0 hk1
  have hex : ∃ x ∈ flux, x ≠ 0 := by
    obtain ⟨⟨x, hx, h⟩, _⟩ := hk0; exact ⟨x, List.mem_of_getElem? hx, h⟩
  have e0 : firstNonNull flux = k0 := (firstNonNull_spec hex).unique hk0
  have e1 : lastNonNull flux = k1 := (lastNonNull_spec hex).unique hk1
  unfold process
  congr 1
  funext m
  split
  · rfl
  simp only
  split
  · rfl
  congr 1
  funext d
  split
  · rfl
  split
  · rfl
  simp only [e0, e1]
  by_cases h2 : 2 ≤ min m.toNat (flux.length / 2)
  · obtain ⟨n, hn1, hn2, hn3, _⟩ := reflexion_spec (nd := k1 - k0 + 1) (mean := min m.toNat (flux.length / 2)) (by omega) h2
    rw [hn1, Res.bind_ok, Res.bind_ok, max_eq_right (by omega), min_eq_left (by omega)]
  · have : reflexion (k1 - k0 + 1) (min m.toNat (flux.length / 2)) = .ub := by
      unfold reflexion; rw [if_pos (by omega)]
    rw [this]; rfl

/-! ## Scaling -/

theorem tab_map {α β : Type} {g : Nat → Res α} {h : Nat → Res β} (f : α → β) (n : Nat)
    (hg : ∀ i, i < n → h i = g i >>= fun x => .ok (f x)) : Res.tab h n = Res.tab g n >>= fun l => .ok (l.map f) := by
  induction n with
  | zero => rfl
  | succ n ih =>
    unfold Res.tab
    rw [ih (fun i hi => hg i (by omega)), hg n (by omega)]
    cases Res.tab g n with
    | throw e => rfl
    | ub => rfl
    | ok l =>
      simp only [Res.bind_ok]
      cases g n with
      | throw e => rfl
      | ub => rfl
      | ok a => simp

theorem find_scale {a : K} (ha : 0 < a) (l : List K) :
    Median.find (l.map (a * ·)) = Median.find l >>= fun x => .ok (a * x) := by
  by_cases hne : l = []
  · subst hne; rfl
  have hs := Median.sortedOf_mergeSort l
  have hs' : Median.SortedOf (l.map (a * ·)) (l.mergeSort.map (a * ·)) :=
    ⟨hs.perm.map _, List.pairwise_map.2 (hs.sorted.imp (fun h => mul_le_mul_of_nonneg_left h ha.le))⟩
  obtain ⟨h1, h2, h3⟩ := Median.C13_find l l.mergeSort hs hne
  obtain ⟨h4, h5, h6⟩ := Median.C13_find _ _ hs' (by simpa using hne)
  rw [h3, h6]
  simp only [List.length_map, List.getElem_map]
  split
  · rfl
  · split
    · simp only [Res.bind_ok, Res.ok.injEq]; ring
    · rfl

theorem mean_scale {a : K} (l : List K) : mean (l.map (a * ·)) = mean l >>= fun x => .ok (a * x) := by
  unfold mean
  by_cases h : l = []
  · subst h; rfl
  · rw [if_neg h, if_neg (by simpa using h), Res.bind_ok, List.sum_map_mul_left, List.length_map, List.map_id', mul_div_assoc]

theorem window_map {f : K → K} (y : List K) (w i : Nat) : window (y.map f) w i = (window y w i).map f := by
  simp [window, List.map_take, List.map_drop]

theorem smooth_scale {a : K} {g : List K → Res K} (hg : ∀ l : List K, g (l.map (a * ·)) = g l >>= fun x => .ok (a * x))
    (y : List K) (w : Nat) : smooth g (y.map (a * ·)) w = smooth g y w >>= fun l => .ok (l.map (a * ·)) := by
  unfold smooth
  rw [List.length_map]
  split
  · rfl
  · refine tab_map _ _ fun i _ => ?_
    rw [window_map, hg]

theorem cycle_scale {a : K} (ha : 0 < a) (w : Nat) : ∀ (n : Nat) (y : List K),
    cycle w n (y.map (a * ·)) = cycle w n y >>= fun l => .ok (l.map (a * ·))
  | 0, _ => rfl
  | n + 1, y => by
    unfold cycle medianSmooth
    rw [smooth_scale (find_scale ha)]
    cases smooth Median.find y w with
    | throw e => rfl
    | ub => rfl
    | ok z => simp only [Res.bind_ok]; exact cycle_scale ha w n z

theorem smoothAll_scale {a : K} (ha : 0 < a) (c med mean' : Nat) (y : List K) :
    smoothAll c med mean' (y.map (a * ·)) = smoothAll c med mean' y >>= fun l => .ok (l.map (a * ·)) := by
  unfold smoothAll
  split
  · rfl
  rw [cycle_scale ha]
  cases cycle (2 * med + 1) c y with
  | throw e => rfl
  | ub => rfl
  | ok z =>
    simp only [Res.bind_ok]
    rw [cycle_scale ha]
    cases cycle (2 * (med / 2) + 1) c z with
    | throw e => rfl
    | ub => rfl
    | ok z' => simp only [Res.bind_ok]; exact smooth_scale mean_scale _ _

theorem nonNull_scale {a : K} (ha : 0 < a) (x : K) : decide (a * x ≠ 0) = decide (x ≠ 0) := by
  congr 1
  simp [ha.ne']

/-- Specification: the samples of `y` at the positions `lo, lo + 1, ..., hi - 1`. -/
def IsSlice (y : List K) (lo hi : Nat) (win : List K) : Prop :=
  win.length = hi - lo ∧ ∀ k, k < hi - lo → win[k]? = y[lo + k]?

theorem window_slice (y : List K) (w i : Nat) :
    IsSlice y (i - w / 2) (min (i + (w - w / 2)) y.length) (window y w i) := by
  unfold window
  have hw : i + w / 2 + (w - 2 * (w / 2)) = i + (w - w / 2) := by omega
  rw [hw]
  refine ⟨by simp, ?_⟩
  intro k hk
  rw [List.getElem?_drop, List.getElem?_take, if_pos (by omega)]

/-- **C53, windows.** Each sample of the median smoothing with a window of `w` samples is the median of the samples from
`w / 2` before it to `w - w / 2 - 1` behind it, cut at the ends of the spectrum. -/
theorem C53_median_window (y z : List K) (w : Nat) (h : medianSmooth y w = .ok z) :
    z.length = y.length ∧ ∀ (i : Nat) m, z[i]? = some m →
      ∃ win, IsSlice y (i - w / 2) (min (i + (w - w / 2)) y.length) win ∧ Median.find win = .ok m := by
  unfold medianSmooth smooth at h
  split at h
  · cases h
  have hl := Res.tab_length _ h
  refine ⟨hl, fun i m hi => ?_⟩
  have hlt : i < y.length := by rw [← hl]; exact (List.getElem?_eq_some_iff.1 hi).1
  obtain ⟨m', h2, h1⟩ := Res.tab_get _ h i hlt
  rw [h2] at hi
  cases hi
  exact ⟨_, window_slice y w i, h1⟩

/-- **C53, windows of the mean.** The same for the mean smoothing. -/
theorem C53_mean_window (y z : List K) (w : Nat) (h : meanSmooth y w = .ok z) :
    z.length = y.length ∧ ∀ (i : Nat) m, z[i]? = some m →
      ∃ win, IsSlice y (i - w / 2) (min (i + (w - w / 2)) y.length) win ∧ win ≠ [] ∧ m * (win.length : K) = win.sum := by
  unfold meanSmooth smooth at h
  split at h
  · cases h
  have hl := Res.tab_length _ h
  refine ⟨hl, fun i m hi => ?_⟩
  have hlt : i < y.length := by rw [← hl]; exact (List.getElem?_eq_some_iff.1 hi).1
  obtain ⟨m', h2, h1⟩ := Res.tab_get _ h i hlt
  rw [h2] at hi
  cases hi
  unfold mean at h1
  split at h1
  · cases h1
  · rename_i hne
    cases h1
    refine ⟨_, window_slice y w i, hne, ?_⟩
    have hp : ((window y w i).length : K) ≠ 0 := by
      have := List.length_pos_iff.2 hne
      exact_mod_cast this.ne'
    field_simp

/-- **C53, mirrored borders.** The extended spectrum holds the spectrum behind `n` samples, in front of them the first
samples and behind them the last ones in reverse order: as they are for an even reflection, and for an odd one turned
about the border values, `2 b - x`. -/
theorem C53_mirror (y : List K) (n : Nat) (hn : n ≤ y.length) (b e : K) :
    ∃ z z', evenMirror y n = .ok z ∧ oddMirror y n b e = .ok z' ∧ z.length = y.length + 2 * n ∧
      z'.length = y.length + 2 * n ∧ ∀ j, (j < y.length → z[n + j]? = y[j]? ∧ z'[n + j]? = y[j]?) ∧
        (j < n → z[n - 1 - j]? = y[j]? ∧ z'[n - 1 - j]? = (y[j]?).map (2 * b - ·) ∧
          z[n + y.length + j]? = y[y.length - 1 - j]? ∧
          z'[n + y.length + j]? = (y[y.length - 1 - j]?).map (2 * e - ·)) := by
  unfold evenMirror oddMirror
  rw [if_neg (by omega), if_neg (by omega)]
  refine ⟨_, _, rfl, rfl, by simp; omega, by simp; omega, fun j => ⟨fun hj => ⟨?_, ?_⟩, fun hj => ⟨?_, ?_, ?_, ?_⟩⟩⟩
  · rw [List.append_assoc, List.getElem?_append_right (by simp), List.getElem?_append_left (by simp; omega)]
    congr 1; simp [hn]
  · rw [List.append_assoc, List.getElem?_append_right (by simp), List.getElem?_append_left (by simp; omega)]
    congr 1; simp [hn]
  · rw [List.append_assoc, List.getElem?_append_left (by simp; omega), List.getElem?_reverse (by simp; omega),
      List.getElem?_take, if_pos (by simp; omega)]
    congr 1; simp; omega
  · rw [List.append_assoc, List.getElem?_append_left (by simp; omega), List.getElem?_map,
      List.getElem?_reverse (by simp; omega), List.getElem?_take, if_pos (by simp; omega)]
    congr 2; simp; omega
  · rw [List.getElem?_append_right (by simp; omega), List.getElem?_take, if_pos (by simp; omega),
      List.getElem?_reverse (by simp; omega)]
    congr 1; simp; omega
  · rw [List.getElem?_append_right (by simp; omega), List.getElem?_map, List.getElem?_take, if_pos (by simp; omega),
      List.getElem?_reverse (by simp; omega)]
    congr 2; simp; omega

-- the hypotheses are met
example : medianSmooth [5, 1, 9, 2, (4 : ℚ)] 3 >>= (fun z => .ok (z.length)) = .ok 5 := by
  have h : ∃ z, medianSmooth [5, 1, 9, 2, (4 : ℚ)] 3 = .ok z ∧ z.length = 5 := by
    have e : ∀ l : List ℚ, l ≠ [] → ∃ m, Median.find l = .ok m := fun l hl => by
      obtain ⟨m, hm, _⟩ := find_between l hl; exact ⟨m, hm⟩
    unfold medianSmooth smooth
    rw [if_neg (by decide)]
    obtain ⟨z, hz, hl, _⟩ := tab_total (g := fun i => Median.find (window [5, 1, 9, 2, (4 : ℚ)] 3 i)) (P := fun _ => True) 5
      (fun i hi => (e _ (window_ne_nil (y := [5, 1, 9, 2, (4 : ℚ)]) (w := 3) (by decide) hi)).imp fun _ h => ⟨h, trivial⟩)
    exact ⟨z, hz, hl⟩
  obtain ⟨z, hz, hl⟩ := h
  rw [hz, Res.bind_ok, hl]

/-- Specification: `n` median smoothings with the same window one after the other. -/
inductive Smoothed (w : Nat) : Nat → List K → List K → Prop
  | zero (y) : Smoothed w 0 y y
  | succ {n y y' z} : Smoothed w n y y' → medianSmooth y' w = .ok z → Smoothed w (n + 1) y z

theorem cycle_smoothed {w : Nat} : ∀ (n : Nat) {k : Nat} {y0 y z : List K}, Smoothed w k y0 y → cycle w n y = .ok z →
    Smoothed w (k + n) y0 z := by
  intro n
  induction n with
  | zero => intro k y0 y z hs h; cases h; exact hs
  | succ n ih =>
    intro k y0 y z hs h
    unfold cycle at h
    obtain ⟨y', h1, h2⟩ := Res.bind_eq_ok.1 h
    have := ih (Smoothed.succ hs h1) h2
    rwa [show k + 1 + n = k + (n + 1) by omega] at this

/-- **C53, the steps of the estimation.** When the continuum is removed, with `m` and `d` the mean and median amplitudes in
samples: the effective spectrum (from the first to the last non null sample) is extended by mirroring `r` samples, with
`r` half of its size limited to between 10 and `5 mean`, then smoothed `cycles` times by medians over `2 med + 1` samples, `cycles` times by medians
over about half of that, and once by means over a quarter of the mean amplitude; the flux minus that is the result inside
the effective spectrum, and the flux outside. -/
theorem C53_steps (fit : Nat → Nat → Bool → K) (cfg : Cfg K) (flux out l : List K) (resolution : K) (m d : Int)
    (hm : amplitude cfg.meanW resolution = .ok m) (hd : amplitude cfg.medianW resolution = .ok d)
    (k0 k1 : Nat) (hk0 : IsFirst flux k0) (hk1 : IsLast flux k1)
    (h : process fit cfg flux out resolution = .ok (true, l)) :
    ∃ eff big y1 y2 y3 : List K, ∃ mean med r : Nat, mean = min m.toNat (flux.length / 2) ∧ med = max mean d.toNat ∧
      r = max 10 (min (5 * mean) ((k1 - k0 + 2) / 2)) ∧ 2 ≤ mean ∧ IsSlice flux k0 (k1 + 1) eff ∧
      (if cfg.even = true then evenMirror eff r = .ok big else oddMirror eff r (fit k0 k1 false) (fit k0 k1 true) = .ok big) ∧
      Smoothed (2 * med + 1) cfg.cycles.toNat big y1 ∧ Smoothed (2 * (med / 2) + 1) cfg.cycles.toNat y1 y2 ∧
      meanSmooth y2 (mean / 4) = .ok y3 ∧ l.length = flux.length ∧
      ∀ (j : Nat) x, flux[j]? = some x →
        (j < k0 ∨ k1 < j → l[j]? = some x) ∧
        (k0 ≤ j → j ≤ k1 → ∃ c, y3[j - k0 + r]? = some c ∧ l[j]? = some (x - c)) := by
  obtain ⟨hle, hlt, hnd⟩ := effective_size hk0 hk1
  have hex : ∃ x ∈ flux, x ≠ 0 := by
    obtain ⟨⟨x, hx, h⟩, _⟩ := hk0; exact ⟨x, List.mem_of_getElem? hx, h⟩
  have e0 : firstNonNull flux = k0 := (firstNonNull_spec hex).unique hk0
  have e1 : lastNonNull flux = k1 := (lastNonNull_spec hex).unique hk1
  unfold process at h
  rw [hm, Res.bind_ok] at h
  split at h
  · cases h
  simp only at h
  split at h
  · cases h
  rw [hd, Res.bind_ok] at h
  split at h
  · cases h
  split at h
  · cases h
  rename_i hen
  simp only [e0, e1] at h
  set mean := min m.toNat (flux.length / 2) with hmean
  set med := max mean d.toNat with hmed
  obtain ⟨r, hr, h⟩ := Res.bind_eq_ok.1 h
  obtain ⟨big, hbig, h⟩ := Res.bind_eq_ok.1 h
  obtain ⟨y3, hs, h⟩ := Res.bind_eq_ok.1 h
  obtain ⟨l', hsub, h⟩ := Res.bind_eq_ok.1 h
  cases h
  unfold smoothAll at hs
  split at hs
  · cases hs
  obtain ⟨y1, h1, hs⟩ := Res.bind_eq_ok.1 hs
  obtain ⟨y2, h2, hs⟩ := Res.bind_eq_ok.1 hs
  have hnd' : 11 ≤ k1 - k0 + 1 := by
    have hc : 10 < (flux.filter (fun x => decide (x ≠ 0))).length := by
      unfold enoughSamples at hen; simpa using hen
    omega
  have hr2 : r = max 10 (min (5 * mean) ((k1 - k0 + 2) / 2)) ∧ 2 ≤ mean := by
    unfold reflexion at hr
    split at hr
    · cases hr
    · split at hr
      · cases hr; omega
      · split at hr <;> cases hr <;> omega
  have hr3 : r ≤ k1 - k0 + 1 := by omega
  refine ⟨(flux.take (k1 + 1)).drop k0, big, y1, y2, y3, mean, med, r, rfl, rfl, hr2.1, hr2.2, ⟨?_, ?_⟩, ?_, ?_, ?_, hs,
    Res.tab_length _ hsub, ?_⟩
  · rw [List.length_drop, List.length_take]; omega
  · intro k hk
    rw [List.getElem?_drop, List.getElem?_take, if_pos (by omega)]
  · rw [max_eq_right (by omega), min_eq_left (by omega)] at hbig
    split at hbig
    · rename_i he; rw [if_pos he]; exact hbig
    · rename_i he; rw [if_neg he]; exact hbig
  · have := cycle_smoothed _ (Smoothed.zero big) h1
    rwa [Nat.zero_add] at this
  · have := cycle_smoothed _ (Smoothed.zero y1) h2
    rwa [Nat.zero_add] at this
  · intro j x hx
    have hj : j < flux.length := (List.getElem?_eq_some_iff.1 hx).1
    obtain ⟨a, ha, hb⟩ := Res.tab_get _ hsub j hj
    rw [Res.at_eq_ok.2 hx, Res.bind_ok] at hb
    constructor
    · intro ho
      rw [if_pos ho] at hb; cases hb; exact ha
    · intro q1 q2
      rw [if_neg (by omega)] at hb
      obtain ⟨c, hc, hb⟩ := Res.bind_eq_ok.1 hb
      cases hb
      exact ⟨c, Res.at_eq_ok.1 hc, ha⟩

/-- **C53, scaling.** With an even reflection, multiplying the flux by a positive number multiplies the result by it. -/
theorem C53_scale (fit : Nat → Nat → Bool → K) (cfg : Cfg K) (he : cfg.even = true) (flux out : List K)
    (resolution a : K) (ha : 0 < a) :
    process fit cfg (flux.map (a * ·)) (out.map (a * ·)) resolution =
      process fit cfg flux out resolution >>= fun p => .ok (p.1, p.2.map (a * ·)) := by
  have hff : (fun x => decide (x ≠ 0)) ∘ (fun x => a * x) = (fun x : K => decide (x ≠ 0)) := by
    funext x; exact nonNull_scale ha x
  have f0 : firstNonNull (flux.map (a * ·)) = firstNonNull flux := by
    unfold firstNonNull; rw [List.findIdx?_map, hff]
  have f1 : lastNonNull (flux.map (a * ·)) = lastNonNull flux := by
    unfold lastNonNull; rw [← List.map_reverse, List.findIdx?_map, hff, List.length_map]
  have f2 : enoughSamples (flux.map (a * ·)) = enoughSamples flux := by
    unfold enoughSamples; rw [List.filter_map, List.length_map, hff]
  unfold process
  rw [f0, f1, f2, List.length_map]
  cases amplitude cfg.meanW resolution with
  | throw e => rfl
  | ub => rfl
  | ok m =>
    simp only [Res.bind_ok]
    split
    · rfl
    split
    · rfl
    cases amplitude cfg.medianW resolution with
    | throw e => rfl
    | ub => rfl
    | ok d =>
      simp only [Res.bind_ok]
      split
      · rfl
      split
      · simp
      cases reflexion (lastNonNull flux - firstNonNull flux + 1) (min m.toNat (flux.length / 2)) with
      | throw e => rfl
      | ub => rfl
      | ok n =>
        simp only [Res.bind_ok]
        rw [← List.map_take, ← List.map_drop]
        have hmir : ∀ y : List K, evenMirror (y.map (a * ·)) n = evenMirror y n >>= fun l => .ok (l.map (a * ·)) := by
          intro y
          unfold evenMirror
          rw [List.length_map]
          split
          · rfl
          · simp [List.map_take]
        rw [hmir]
        cases evenMirror ((flux.take (lastNonNull flux + 1)).drop (firstNonNull flux)) n with
        | throw e => rfl
        | ub => rfl
        | ok big =>
          simp only [Res.bind_ok]
          rw [smoothAll_scale ha]
          cases smoothAll cfg.cycles.toNat (max (min m.toNat (flux.length / 2)) d.toNat) (min m.toNat (flux.length / 2)) big with
          | throw e => rfl
          | ub => rfl
          | ok z =>
            simp only [Res.bind_ok]
            have hsub : subtract (flux.map (a * ·)) (z.map (a * ·)) (firstNonNull flux) (lastNonNull flux) n =
                subtract flux z (firstNonNull flux) (lastNonNull flux) n >>= fun l => .ok (l.map (a * ·)) := by
              unfold subtract
              rw [List.length_map]
              refine tab_map _ _ fun i hi => ?_
              rw [Res.at_of_lt (by simpa using hi), Res.at_of_lt hi, List.getElem_map]
              simp only [Res.bind_ok]
              split
              · rfl
              · unfold Res.at_
                rw [List.getElem?_map]
                cases z[i - firstNonNull flux + n]? with
                | none => rfl
                | some c => simp [mul_sub]
            rw [hsub]
            cases subtract flux z (firstNonNull flux) (lastNonNull flux) n <;> rfl

/-! ## In a spectrum -/

/-- **C53, in a spectrum.** For a spectrum with the method `irregularSamplingMedian`, an even reflection and a window of
at least four samples, the continuum is available, null outside the effective spectrum, and between the smallest and the
largest flux of the effective spectrum inside. -/
theorem C53_spectrum (fit : Nat → Nat → Bool → K) (s : Continuum.Spc K) (hsz : s.raw.length = s.axis.length)
    (hmeth : s.method = "irregularSamplingMedian") (hrem : s.removed = false) (heven : s.even = true)
    (r : K) (hr : SAxis.meanResolution s.axis 0 (s.axis.length - 1) = .ok r)
    (m : Int) (hm : amplitude s.win r = .ok m) (hm4 : 4 ≤ m)
    (hn : 10 < (s.raw.filter (fun x => decide (x ≠ 0))).length)
    (hov : 4 * (s.raw.length : Int) + 2 * m + 1 ≤ 2147483647)
    (k0 k1 : Nat) (hk0 : IsFirst s.raw k0) (hk1 : IsLast s.raw k1) :
    ∃ c, (Continuum.getCont (remove fit) s).2 = .ok c ∧ c.length = s.raw.length ∧
      (∀ j x, j < k0 ∨ k1 < j → c[j]? = some x → x = 0) ∧
      (∀ lo hi, (∀ j x, k0 ≤ j → j ≤ k1 → s.raw[j]? = some x → lo ≤ x ∧ x ≤ hi) →
        ∀ j x, k0 ≤ j → j ≤ k1 → c[j]? = some x → lo ≤ x ∧ x ≤ hi) := by
  obtain ⟨l, h1, h2, h3, h4⟩ := C53_bounds fit ⟨s.win, s.win, 5, s.even⟩ s.raw [] r m m hm hm hm4 (by omega) (by show (1 : Int) ≤ 5; decide) hn hov
    k0 k1 hk0 hk1
  have hrm : remove fit s.axis s.raw s.win s.even = .ok l := by
    unfold remove; rw [hr, Res.bind_ok, h1]; rfl
  have hc : (Continuum.getCont (remove fit) s).2 = .ok (Continuum.sub s.raw l) := by
    unfold Continuum.getCont Continuum.lazy
    rw [hrem]
    simp only [Bool.false_eq_true, if_false]
    unfold Continuum.estimate
    rw [if_pos hmeth, hrm]
    simp only
    unfold Continuum.fill
    rw [if_neg (by simp [Continuum.reset, h2])]
    rfl
  refine ⟨_, hc, by simp [Continuum.sub, h2], fun j x hj hx => ?_, fun lo hi hb j x hj0 hj1 hx => ?_⟩
  · unfold Continuum.sub at hx
    rw [List.getElem?_zipWith, h3 j hj] at hx
    cases hf : s.raw[j]? with
    | none => rw [hf] at hx; simp at hx
    | some y => rw [hf] at hx; simp at hx; exact hx.symm
  · unfold Continuum.sub at hx
    rw [List.getElem?_zipWith] at hx
    cases hf : s.raw[j]? with
    | none => rw [hf] at hx; simp at hx
    | some y =>
      cases hl : l[j]? with
      | none => rw [hf, hl] at hx; simp at hx
      | some z =>
        rw [hf, hl] at hx
        simp at hx
        rw [← hx]
        exact h4 heven lo hi hb j y z hj0 hj1 hf hl

/-- **C53, in a spectrum.** A window below half a sample makes the continuum unavailable. -/
theorem C53_spectrum_refused (fit : Nat → Nat → Bool → K) (s : Continuum.Spc K) (hne : s.raw ≠ [])
    (hmeth : s.method = "irregularSamplingMedian") (hrem : s.removed = false)
    (r : K) (hr : SAxis.meanResolution s.axis 0 (s.axis.length - 1) = .ok r)
    (m : Int) (hm : amplitude s.win r = .ok m) (hm0 : m ≤ 0) :
    (Continuum.getCont (remove fit) s).2 = .throw .INTERNAL_ERROR := by
  have h1 := (C53_refused fit ⟨s.win, s.win, 5, s.even⟩ s.raw [] r m m hm hm).1 (Or.inl hm0)
  have hrm : remove fit s.axis s.raw s.win s.even = .ok [] := by
    unfold remove; rw [hr, Res.bind_ok, h1]; rfl
  unfold Continuum.getCont Continuum.lazy
  rw [hrem]
  simp only [Bool.false_eq_true, if_false]
  unfold Continuum.estimate
  rw [if_pos hmeth, hrm]
  simp only
  unfold Continuum.fill
  rw [if_pos (by simp only [Continuum.reset]; intro h; exact hne (List.length_eq_zero_iff.1 h.symm))]
  rfl

/-! ## A concrete spectrum -/

/-- Twelve samples, a null one at each end. -/
def exFlux : List ℚ := [0, 3, 3, 3, 9, 3, 3, 3, 3, 3, 3, 3, 3, 0]

example : amplitude (8 : ℚ) 2 = .ok 4 ∧ 10 < (exFlux.filter (fun x => decide (x ≠ 0))).length ∧
    firstNonNull exFlux = 1 ∧ lastNonNull exFlux = 12 := by decide +kernel

example : IsFirst exFlux 1 ∧ IsLast exFlux 12 := by
  have h : ∃ x ∈ exFlux, x ≠ 0 := ⟨3, by decide +kernel, by decide +kernel⟩
  have a := firstNonNull_spec h
  have b := lastNonNull_spec h
  rw [show firstNonNull exFlux = 1 by decide +kernel] at a
  rw [show lastNonNull exFlux = 12 by decide +kernel] at b
  exact ⟨a, b⟩

/-- A constant spectrum of eleven samples between two null ones. -/
def exConst : List ℚ := [0, 3, 3, 3, 3, 3, 3, 3, 3, 3, 3, 3, 0]

example : process (fun _ _ _ => 0) ⟨8, 9, 5, true⟩ exConst [] (2 : ℚ) = .ok (true, List.replicate 13 0) := by
  have h : ∃ x ∈ exConst, x ≠ 0 := ⟨3, by decide +kernel, by decide +kernel⟩
  have a := firstNonNull_spec h
  have b := lastNonNull_spec h
  rw [show firstNonNull exConst = 1 by decide +kernel] at a
  rw [show lastNonNull exConst = 11 by decide +kernel] at b
  refine C53_constant _ ⟨8, 9, 5, true⟩ exConst [] 2 4 5 (by decide +kernel) (by decide +kernel) (by decide) (by decide)
    (by decide) rfl (by decide +kernel) (by decide +kernel) 3 1 11 a b ?_
  intro j x h1 h2 hx
  have hh : ∀ j, 1 ≤ j → j ≤ 11 → exConst[j]? = some 3 := by decide +kernel
  rw [hh j h1 h2] at hx
  exact (Option.some.inj hx).symm

/-- The hypotheses of `C53_small_window` are met by a window of one to three samples. -/
example : process (fun _ _ _ => 0) ⟨4, 9, 5, true⟩ exConst [] (2 : ℚ) = .ub :=
  C53_small_window _ ⟨4, 9, 5, true⟩ exConst [] 2 2 5 (by decide +kernel) (by decide +kernel) (by decide) (by decide)
    (by decide) (by decide) (by decide +kernel)

end
end MedCont
end Amazed
