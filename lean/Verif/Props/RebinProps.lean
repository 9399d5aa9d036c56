import Mathlib.Tactic.Linarith
import Mathlib.Tactic.FieldSimp
import Mathlib.Tactic.Ring
import Mathlib.Tactic.NormNum
import Verif.Model.Rebin
import Verif.Props.IndexingProps
import Verif.Props.LogZPdfProps

/-! # C37, C50: rebinning of a spectrum on a target axis -/

set_option linter.unusedSectionVars false

namespace Amazed

section
variable {K : Type} [Field K] [LinearOrder K] [IsStrictOrderedRing K]

/-- Linear interpolation lies between the values at the two neighbours. -/
theorem OnPolyline.between {xs ys : List K} {x y : K} (hs : xs.Pairwise (· < ·)) (h : OnPolyline xs ys x y) :
    ∃ i u v, ys[i]? = some u ∧ ys[i + 1]? = some v ∧ min u v ≤ y ∧ y ≤ max u v := by
  obtain ⟨i, x0, x1, y0, y1, e0, e1, f0, f1, h0, h1, he⟩ := h
  obtain ⟨hi0, rfl⟩ := List.getElem?_eq_some_iff.1 e0
  obtain ⟨hi1, rfl⟩ := List.getElem?_eq_some_iff.1 e1
  have hlt : xs[i] < xs[i + 1] := getElem_lt_of_lt hs (by omega) hi1
  refine ⟨i, y0, y1, f0, f1, ?_⟩
  have hy : y = y0 + (x - xs[i]) / (xs[i + 1] - xs[i]) * (y1 - y0) := by
    have hd : xs[i + 1] - xs[i] ≠ 0 := (sub_pos.2 hlt).ne'
    field_simp
    linear_combination he
  rw [hy]
  exact lerp_between hlt h0 h1

/-- Linear interpolation is exact at the source points. -/
theorem OnPolyline.exact {xs ys : List K} {x y : K} (hs : xs.Pairwise (· < ·)) (h : OnPolyline xs ys x y)
    {k : Nat} (hk : xs[k]? = some x) : ys[k]? = some y := by
  obtain ⟨i, x0, x1, y0, y1, e0, e1, f0, f1, h0, h1, he⟩ := h
  obtain ⟨hi0, rfl⟩ := List.getElem?_eq_some_iff.1 e0
  obtain ⟨hi1, rfl⟩ := List.getElem?_eq_some_iff.1 e1
  obtain ⟨hk1, rfl⟩ := List.getElem?_eq_some_iff.1 hk
  have hlt : xs[i] < xs[i + 1] := getElem_lt_of_lt hs (by omega) hi1
  have hki : k = i ∨ k = i + 1 := by
    by_contra hne
    rw [not_or] at hne
    rcases Nat.lt_or_gt_of_ne hne.1 with h | h
    · exact absurd (getElem_lt_of_lt hs h hi0) (not_lt.2 h0)
    · exact absurd (getElem_lt_of_lt hs (by omega : i + 1 < k) hk1) (not_lt.2 h1)
  have hd : xs[i + 1] - xs[i] ≠ 0 := (sub_pos.2 hlt).ne'
  rcases hki with rfl | rfl
  · have : y = y0 := by
      have : (y - y0) * (xs[k + 1] - xs[k]) = 0 := by rw [he]; ring
      rcases mul_eq_zero.1 this with h | h
      · linarith
      · exact absurd h hd
    rw [this]; exact f0
  · have : y = y1 := by
      have : (y - y1) * (xs[i + 1] - xs[i]) = 0 := by linear_combination he
      rcases mul_eq_zero.1 this with h | h
      · linarith
      · exact absurd h hd
    rw [this]; exact f1

end

namespace Rebin

section
variable {K : Type} [Field K] [LinearOrder K] [IsStrictOrderedRing K]

theorem prefixLoop_eq (m : ErrMode) (b : K) (xt : List K) :
    prefixLoop m b xt = ((xt.takeWhile (fun x => decide (x < b))).map (fun _ => outside m),
      xt.dropWhile (fun x => decide (x < b))) := by
  induction xt with
  | nil => rfl
  | cons x xt ih =>
    unfold prefixLoop
    by_cases h : x < b
    · simp [h, ih]
    · simp [h]

/-- The cells written for a list of target samples starting at cursor `c`. -/
def Cells (P : Nat → K → Cell K → Prop) (c : Nat) (xt : List K) (cells : List (Cell K)) : Prop :=
  cells.length = xt.length ∧
  ∀ (i : Nat) x cell, xt[i]? = some x → cells[i]? = some cell → P (c + i) x cell

theorem Cells.append {P : Nat → K → Cell K → Prop} {c : Nat} {a b : List K} {u v : List (Cell K)}
    (h1 : Cells P c a u) (h2 : Cells P (c + a.length) b v) : Cells P c (a ++ b) (u ++ v) := by
  refine ⟨by simp [h1.1, h2.1], ?_⟩
  intro i x cell hx hc
  by_cases hi : i < a.length
  · rw [List.getElem?_append_left hi] at hx
    rw [List.getElem?_append_left (by rw [h1.1]; exact hi)] at hc
    exact h1.2 i x cell hx hc
  · rw [List.getElem?_append_right (by omega)] at hx
    rw [List.getElem?_append_right (by rw [h1.1]; omega), h1.1] at hc
    have := h2.2 _ x cell hx hc
    rwa [show c + a.length + (i - a.length) = c + i by omega] at this

theorem Cells.mono {P Q : Nat → K → Cell K → Prop} {c : Nat} {a : List K} {u : List (Cell K)}
    (h : Cells P c a u) (hPQ : ∀ i x cell, x ∈ a → P i x cell → Q i x cell) : Cells Q c a u :=
  ⟨h.1, fun i x cell hx hc => hPQ _ x cell (List.mem_of_getElem? hx) (h.2 i x cell hx hc)⟩

theorem Cells.const (P : Nat → K → Cell K → Prop) (c : Nat) (a : List K) (o : Cell K)
    (h : ∀ i x, x ∈ a → P i x o) : Cells P c a (a.map (fun _ => o)) := by
  refine ⟨by simp, ?_⟩
  intro i x cell hx hc
  rw [List.getElem?_map, hx] at hc
  cases hc
  exact h _ _ (List.mem_of_getElem? hx)

/-- The loop over the targets up to `hi`: on a sorted list it consumes exactly the targets `≤ hi`. -/
theorem whileLe_spec (hi : K) (f : Nat → K → Res (Cell K)) (rest : List K) : ∀ (c : Nat),
    rest.Pairwise (· ≤ ·) →
    (∀ (j : Nat) x, rest[j]? = some x → x ≤ hi → ∃ cell, f (c + j) x = .ok cell) →
    ∃ done left cells, rest = done ++ left ∧ whileLe hi f c rest = .ok (cells, left) ∧
      (∀ x ∈ done, x ≤ hi) ∧ (∀ x ∈ left, hi < x) ∧
      Cells (fun i x cell => f i x = .ok cell) c done cells := by
  induction rest with
  | nil =>
    intro c _ _
    exact ⟨[], [], [], rfl, rfl, by simp, by simp, ⟨rfl, by simp⟩⟩
  | cons x rest ih =>
    intro c hs hf
    rw [List.pairwise_cons] at hs
    unfold whileLe
    by_cases hx : x ≤ hi
    · obtain ⟨cell, hc⟩ := hf 0 x rfl hx
      obtain ⟨done, left, cells, e1, e2, e3, e4, e5⟩ := ih (c + 1) hs.2 (fun j y hy hle => by
        have := hf (j + 1) y (by simpa using hy) hle
        rwa [show c + (j + 1) = c + 1 + j by omega] at this)
      refine ⟨x :: done, left, cell :: cells, by simp [e1], ?_, ?_, e4, ?_⟩
      · rw [if_pos hx]
        simp only [Nat.add_zero] at hc
        rw [hc, Res.bind_ok, e2, Res.bind_ok]
      · intro y hy
        rcases List.mem_cons.1 hy with rfl | hy
        · exact hx
        · exact e3 y hy
      · have : Cells (fun i x cell => f i x = .ok cell) c [x] [cell] := by
          refine ⟨rfl, ?_⟩
          intro i y d hy hd
          rcases i with _ | i
          · simp at hy hd; subst hy; subst hd; exact hc
          · simp at hy
        exact this.append (by simpa using e5)
    · refine ⟨[], x :: rest, [], rfl, by rw [if_neg hx], by simp, ?_, ⟨rfl, by simp⟩⟩
      intro y hy
      rcases List.mem_cons.1 hy with rfl | hy
      · exact not_le.1 hx
      · exact lt_of_lt_of_le (not_le.1 hx) (hs.1 y hy)

/-- What the code writes for target number `i` at wavelength `x` in the linear rebinning. -/
def LinSpec (xs : List K) (e : K) (f : Nat → Nat → K → Res (Cell K)) (k0 i : Nat) (x : K) (cell : Cell K) : Prop :=
  ∃ (k : Nat) (x0 x1 : K), k0 ≤ k ∧ xs[k]? = some x0 ∧ xs[k + 1]? = some x1 ∧ x0 ≤ e ∧ x0 ≤ x ∧ x ≤ x1 ∧
    f k i x = .ok cell

theorem linearLoop_spec (xs : List K) (e : K) (f : Nat → Nat → K → Res (Cell K)) (hxs : xs.Pairwise (· < ·))
    (fuel : Nat) : ∀ (k c : Nat) (rest : List K), k + fuel + 1 = xs.length → rest.Pairwise (· ≤ ·) →
    (∀ x0, xs[k]? = some x0 → ∀ x ∈ rest, x0 ≤ x) →
    (∀ (k' : Nat) (x0 x1 : K), k ≤ k' → xs[k']? = some x0 → xs[k' + 1]? = some x1 → ∀ (j : Nat) x, rest[j]? = some x →
      x0 ≤ x → x ≤ x1 → ∃ cell, f k' (c + j) x = .ok cell) →
    ∃ done left cells, rest = done ++ left ∧ linearLoop xs e f fuel k c rest = .ok (cells, left) ∧
      Cells (LinSpec xs e f k) c done cells ∧
      (∀ x ∈ left, ∀ (k' : Nat) (x0 x1 : K), k ≤ k' → xs[k']? = some x0 → xs[k' + 1]? = some x1 → x0 ≤ e → x1 < x) := by
  induction fuel with
  | zero =>
    intro k c rest hk _ _ _
    refine ⟨[], rest, [], rfl, rfl, ⟨rfl, by simp⟩, ?_⟩
    intro x _ k' x0 x1 hk' _ h1
    have := (List.getElem?_eq_some_iff.1 h1).1
    omega
  | succ fuel ih =>
    intro k c rest hk hrs hge hf
    have hk0 : k < xs.length := by omega
    have hk1 : k + 1 < xs.length := by omega
    unfold linearLoop
    rw [Res.at_of_lt hk0, Res.bind_ok]
    by_cases hle : xs[k] ≤ e
    · rw [if_pos hle, Res.at_of_lt hk1, Res.bind_ok]
      obtain ⟨done, left, cells, e1, e2, e3, e4, e5⟩ := whileLe_spec xs[k + 1] (f k) rest c hrs (fun j x hx hxle =>
        hf k _ _ (le_refl _) (List.getElem?_eq_getElem hk0) (List.getElem?_eq_getElem hk1) j x hx
          (hge _ (List.getElem?_eq_getElem hk0) x (List.mem_of_getElem? hx)) hxle)
      have hls : left.Pairwise (· ≤ ·) := by rw [e1] at hrs; exact (List.pairwise_append.1 hrs).2.1
      obtain ⟨done', left', cells', g1, g2, g3, g4⟩ := ih (k + 1) (c + cells.length) left (by omega) hls
        (fun x0 h0 x hx => by
          rw [List.getElem?_eq_getElem hk1] at h0; cases h0
          exact (e4 x hx).le)
        (fun k' x0 x1 hk' h0 h1 j x hx hx0 hx1 => by
          have := hf k' x0 x1 (by omega) h0 h1 (done.length + j) x (by
            rw [e1, List.getElem?_append_right (by omega)]; simpa using hx) hx0 hx1
          rwa [← Nat.add_assoc, ← e5.1] at this)
      refine ⟨done ++ done', left', cells ++ cells', by rw [e1, g1, List.append_assoc], ?_, ?_, ?_⟩
      · rw [e2, Res.bind_ok, g2, Res.bind_ok]
      · refine Cells.append (e5.mono ?_) (by
          rw [← e5.1]
          exact g3.mono (fun i x cell _ ⟨k', x0, x1, h0, h⟩ => ⟨k', x0, x1, by omega, h⟩))
        intro i x cell hx hcell
        refine ⟨k, xs[k], xs[k + 1], le_refl _, List.getElem?_eq_getElem hk0, List.getElem?_eq_getElem hk1, hle, ?_,
          e3 x hx, hcell⟩
        exact hge _ (List.getElem?_eq_getElem hk0) x (by rw [e1]; exact List.mem_append_left _ hx)
      · intro x hx k' x0 x1 hk' h0 h1 hx0
        rcases Nat.lt_or_eq_of_le hk' with h | h
        · exact g4 x hx k' x0 x1 h h0 h1 hx0
        · subst h
          rw [List.getElem?_eq_getElem hk1] at h1; cases h1
          exact e4 x (by rw [g1]; exact List.mem_append_right _ hx)
    · rw [if_neg hle]
      refine ⟨[], rest, [], rfl, rfl, ⟨rfl, by simp⟩, ?_⟩
      intro x hx k' x0 x1 hk' h0 h1 hx0
      obtain ⟨hk'1, rfl⟩ := List.getElem?_eq_some_iff.1 h0
      exfalso
      rcases Nat.lt_or_eq_of_le hk' with h | h
      · exact hle (le_trans (getElem_lt_of_lt hxs h hk'1).le hx0)
      · subst h; exact hle hx0

/-- `compute` once the source axis covers the range and the body handles the targets from the range begin
on. -/
theorem compute_spec (body : Nat → List K → Res (List (Cell K) × List K)) (m : ErrMode) (xs : List K) (r : Range K)
    (xt : List K) (hne : 0 < xs.length) (hb : xs[0] ≤ r.b) (he : r.e ≤ xs[xs.length - 1])
    (hxt : xt.Pairwise (· ≤ ·)) (P : Nat → K → Cell K → Prop) (Q : K → Prop)
    (hbody : ∀ pre rest, xt = pre ++ rest → (∀ x ∈ rest, r.b ≤ x) →
      ∃ done left cells, rest = done ++ left ∧ body pre.length rest = .ok (cells, left) ∧
        Cells P pre.length done cells ∧ ∀ x ∈ left, Q x) :
    ∃ cells, compute body m xs r xt = .ok cells ∧
      Cells (fun i x cell => (r.b ≤ x ∧ P i x cell) ∨ (cell = outside m ∧ (x < r.b ∨ Q x))) 0 xt cells := by
  have hp := prefixLoop_eq m r.b xt
  set pre := xt.takeWhile (fun x => decide (x < r.b)) with hpre
  set rest := xt.dropWhile (fun x => decide (x < r.b)) with hrest
  have hsplit : xt = pre ++ rest := (List.takeWhile_append_dropWhile).symm
  have hge : ∀ x ∈ rest, r.b ≤ x := by
    have hrs : rest.Pairwise (· ≤ ·) := by rw [hsplit] at hxt; exact (List.pairwise_append.1 hxt).2.1
    intro x hx
    cases hr : rest with
    | nil => rw [hr] at hx; simp at hx
    | cons a l =>
      have ha : ¬ (decide (a < r.b) = true) := by
        have := List.head?_dropWhile_not (fun x => decide (x < r.b)) xt
        rw [← hrest, hr] at this
        simpa using this
      simp only [decide_eq_true_eq, not_lt] at ha
      rw [hr] at hx hrs
      rcases List.mem_cons.1 hx with rfl | hx
      · exact ha
      · exact le_trans ha ((List.pairwise_cons.1 hrs).1 x hx)
  have hlt : ∀ x ∈ pre, x < r.b := by
    intro x hx
    have := List.all_takeWhile (p := fun x => decide (x < r.b)) (l := xt)
    rw [← hpre, List.all_eq_true] at this
    simpa using this x hx
  obtain ⟨done, left, cells, h1, h2, h3, h4⟩ := hbody pre rest hsplit hge
  refine ⟨pre.map (fun _ => outside m) ++ cells ++ left.map (fun _ => outside m), ?_, ?_⟩
  · unfold compute
    have hz : ((xs.length : Int) - 1) = ((xs.length - 1 : Nat) : Int) := by omega
    have hc : ¬ (r.b < xs[0] ∨ xs[xs.length - 1] < r.e) := by
      rintro (h | h)
      · exact absurd hb (not_le.2 h)
      · exact absurd he (not_le.2 h)
    rw [Res.at_of_lt hne, Res.bind_ok, Res.atZ, if_neg (by omega), hz, Int.toNat_natCast, Res.at_of_lt (by omega),
      Res.bind_ok, if_neg hc, hp]
    simp only [List.length_map]
    rw [h2, Res.bind_ok]
  · have : xt = pre ++ done ++ left := by rw [hsplit, h1, List.append_assoc]
    rw [this]
    refine Cells.append (Cells.append ?_ ?_) ?_
    · exact Cells.const _ _ _ _ (fun i x hx => Or.inr ⟨rfl, Or.inl (hlt x hx)⟩)
    · rw [Nat.zero_add]
      exact h3.mono (fun i x cell hx hP => Or.inl ⟨hge x (by rw [h1]; exact List.mem_append_left _ hx), hP⟩)
    · exact Cells.const _ _ _ _ (fun i x hx => Or.inr ⟨rfl, Or.inr (h4 x hx)⟩)

theorem compute_refuses (body : Nat → List K → Res (List (Cell K) × List K)) (m : ErrMode) (xs : List K) (r : Range K)
    (xt : List K) (hne : 0 < xs.length) (h : r.b < xs[0] ∨ xs[xs.length - 1] < r.e) :
    compute body m xs r xt = .throw .INTERNAL_ERROR := by
  unfold compute
  have hz : ((xs.length : Int) - 1) = ((xs.length - 1 : Nat) : Int) := by omega
  rw [Res.at_of_lt hne, Res.bind_ok, Res.atZ, if_neg (by omega), hz, Int.toNat_natCast, Res.at_of_lt (by omega),
    Res.bind_ok, if_pos h]

end

/-! ## The properties -/

/-- The step of the target axis at sample `i`: to the next sample, for the last sample from the previous
one. -/
def TargetStep (xt : List ℝ) (i : Nat) (d : ℝ) : Prop :=
  (∃ a b, xt[i]? = some a ∧ xt[i + 1]? = some b ∧ d = b - a) ∨
  (i + 1 = xt.length ∧ ∃ a b, xt[i - 1]? = some a ∧ xt[i]? = some b ∧ d = b - a)

/-- Specification of the interpolated error: nothing is interpolated, or the error is interpolated
linearly, or the variance of the weighted mean of the neighbours is scaled by the ratio of the source and
target steps. -/
def ErrSpec (m : ErrMode) (xs es xt : List ℝ) (i : Nat) (x : ℝ) (err : ErrVal ℝ) : Prop :=
  match m with
  | .no => err = .fin 1
  | .rebin => ∃ v, err = .fin v ∧ OnPolyline xs es x v
  | .rebinVariance => ∃ v, err = .fin v ∧ 0 ≤ v ∧
      ∃ (k : Nat) (x0 x1 e0 e1 t d : ℝ), xs[k]? = some x0 ∧ xs[k + 1]? = some x1 ∧ es[k]? = some e0 ∧
        es[k + 1]? = some e1 ∧ x0 ≤ x ∧ x ≤ x1 ∧ t * (x1 - x0) = x - x0 ∧ TargetStep xt i d ∧
        v ^ 2 * d = ((e0 * (1 - t)) ^ 2 + (e1 * t) ^ 2) * (x1 - x0)

/-- The target wavelength is handled: it is not before the range and there is a source interval that
begins in the range and ends at or after it. -/
def Covered (xs : List ℝ) (r : Range ℝ) (x : ℝ) : Prop :=
  r.b ≤ x ∧ ∃ (k : Nat) (x0 x1 : ℝ), xs[k]? = some x0 ∧ xs[k + 1]? = some x1 ∧ x0 ≤ r.e ∧ x ≤ x1

theorem stepCompensation_spec (xt : List ℝ) (hxt : xt.Pairwise (· < ·)) (h2 : 2 ≤ xt.length) (c : Nat)
    (hc : c < xt.length) (s : ℝ) : ∃ d, 0 < d ∧ TargetStep xt c d ∧ stepCompensation xt c s = .ok (s / d) := by
  unfold stepCompensation
  by_cases h : (c : Int) < (xt.length : Int) - 1
  · have hc1 : c + 1 < xt.length := by omega
    have hlt : xt[c] < xt[c + 1] := getElem_lt_of_lt hxt (by omega) hc1
    refine ⟨xt[c + 1] - xt[c], sub_pos.2 hlt,
      Or.inl ⟨_, _, List.getElem?_eq_getElem hc, List.getElem?_eq_getElem hc1, rfl⟩, ?_⟩
    simp only
    rw [if_pos h, Res.at_of_lt hc1, Res.bind_ok, Res.at_of_lt hc, Res.bind_ok, if_neg (sub_pos.2 hlt).ne']
  · have hc1 : c - 1 < xt.length := by omega
    have hlt : xt[c - 1] < xt[c] := getElem_lt_of_lt hxt (by omega) hc
    refine ⟨xt[c] - xt[c - 1], sub_pos.2 hlt,
      Or.inr ⟨by omega, _, _, List.getElem?_eq_getElem hc1, List.getElem?_eq_getElem hc, rfl⟩, ?_⟩
    simp only
    have hz : ((c : Int) - 1) = ((c - 1 : Nat) : Int) := by omega
    rw [if_neg h, Res.at_of_lt hc, Res.bind_ok, Res.atZ, if_neg (by omega), hz, Int.toNat_natCast,
      Res.at_of_lt hc1, Res.bind_ok, if_neg (sub_pos.2 hlt).ne']

/-- One cell of the linear rebinning. -/
theorem linearCell_spec (m : ErrMode) (xs ys es xt : List ℝ) (hxs : xs.Pairwise (· < ·))
    (hys : ys.length = xs.length) (hes : es.length = xs.length)
    (hvar : m = .rebinVariance → xt.Pairwise (· < ·) ∧ 2 ≤ xt.length)
    (k c : Nat) (x x0 x1 : ℝ) (h0 : xs[k]? = some x0) (h1 : xs[k + 1]? = some x1) (hx0 : x0 ≤ x) (hx1 : x ≤ x1)
    (hc : c < xt.length) :
    ∃ cell, linearCell m xs ys es xt k c x = .ok cell ∧ cell.mask = 1 ∧ OnPolyline xs ys x cell.flux ∧
      ErrSpec m xs es xt c x cell.err := by
  obtain ⟨hk0, rfl⟩ := List.getElem?_eq_some_iff.1 h0
  obtain ⟨hk1, rfl⟩ := List.getElem?_eq_some_iff.1 h1
  have hlt : xs[k] < xs[k + 1] := getElem_lt_of_lt hxs (by omega) hk1
  have hd : xs[k + 1] - xs[k] ≠ 0 := (sub_pos.2 hlt).ne'
  have hpoly : ∀ zs : List ℝ, (hz : zs.length = xs.length) →
      OnPolyline xs zs x (zs[k] + (zs[k + 1] - zs[k]) * ((x - xs[k]) / (xs[k + 1] - xs[k]))) := by
    intro zs hz
    refine ⟨k, _, _, _, _, h0, h1, List.getElem?_eq_getElem (by omega), List.getElem?_eq_getElem (by omega), hx0, hx1, ?_⟩
    field_simp
    ring
  unfold linearCell
  rw [Res.at_of_lt hk1, Res.bind_ok, Res.at_of_lt hk0, Res.bind_ok, if_neg hd]
  simp only
  rw [Res.at_of_lt (by omega), Res.bind_ok, Res.at_of_lt (by omega), Res.bind_ok]
  cases m with
  | no => exact ⟨_, rfl, rfl, hpoly ys hys, rfl⟩
  | rebin =>
    simp only
    rw [Res.at_of_lt (by omega), Res.bind_ok, Res.at_of_lt (by omega), Res.bind_ok]
    exact ⟨_, rfl, rfl, hpoly ys hys, _, rfl, hpoly es hes⟩
  | rebinVariance =>
    simp only
    rw [Res.at_of_lt (by omega), Res.bind_ok, Res.at_of_lt (by omega), Res.bind_ok]
    obtain ⟨hxt, h2⟩ := hvar rfl
    obtain ⟨d, hdpos, hstep, hcomp⟩ := stepCompensation_spec xt hxt h2 c hc (xs[k + 1] - xs[k])
    have hcpos : 0 < (xs[k + 1] - xs[k]) / d := div_pos (sub_pos.2 hlt) hdpos
    rw [hcomp, Res.bind_ok, if_neg (not_lt.2 hcpos.le)]
    refine ⟨_, rfl, rfl, hpoly ys hys, _, rfl, mul_nonneg (Real.sqrt_nonneg _) (Real.sqrt_nonneg _), k, _, _, _, _,
      (x - xs[k]) / (xs[k + 1] - xs[k]), d, h0, h1, List.getElem?_eq_getElem (by omega),
      List.getElem?_eq_getElem (by omega), hx0, hx1, by field_simp, hstep, ?_⟩
    generalize (x - xs[k]) / (xs[k + 1] - xs[k]) = t
    have hnn : 0 ≤ es[k] * es[k] * (1 - t) * (1 - t) + es[k + 1] * es[k + 1] * t * t := by
      have h3 := mul_self_nonneg (es[k] * (1 - t))
      have h4 := mul_self_nonneg (es[k + 1] * t)
      nlinarith
    rw [mul_pow, Real.sq_sqrt hnn, Real.sq_sqrt hcpos.le]
    field_simp

/-- **C37.** Linear rebinning onto a sorted target axis, of a range covered by the source axis, ends without
error or out-of-bounds access (for `rebinVariance` the target axis is strictly increasing and has two samples
at least). Every target sample covered by the range gets mask 1, the linear interpolation of the source flux
and the specified error; the others get mask 0, flux 0 and an infinite error. -/
theorem C37_linear_partial (m : ErrMode) (xs ys es xt : List ℝ) (r : Range ℝ) (hxs : xs.Pairwise (· < ·))
    (hys : ys.length = xs.length) (hes : es.length = xs.length) (hxt : xt.Pairwise (· ≤ ·))
    (hvar : m = .rebinVariance → xt.Pairwise (· < ·) ∧ 2 ≤ xt.length)
    (hne : 0 < xs.length) (hb : xs[0] ≤ r.b) (he : r.e ≤ xs[xs.length - 1]) :
    ∃ cells, linear m xs ys es r xt = .ok cells ∧ cells.length = xt.length ∧
      ∀ (i : Nat) x cell, xt[i]? = some x → cells[i]? = some cell →
        (Covered xs r x → cell.mask = 1 ∧ OnPolyline xs ys x cell.flux ∧ ErrSpec m xs es xt i x cell.err) ∧
        (¬ Covered xs r x → cell.mask = 0 ∧ cell.flux = 0 ∧ cell.err = if m = .no then .fin 1 else .inf) := by
  obtain ⟨cells, h1, h2⟩ := compute_spec (linearLoop xs r.e (linearCell m xs ys es xt) (xs.length - 1) 0) m xs r xt hne hb he
    hxt (fun i x cell => LinSpec xs r.e (linearCell m xs ys es xt) 0 i x cell ∧ i < xt.length)
    (fun x => ∀ (k' : Nat) (x0 x1 : ℝ), xs[k']? = some x0 → xs[k' + 1]? = some x1 → x0 ≤ r.e → x1 < x)
    (by
      intro pre rest hsplit hge
      have hrs : rest.Pairwise (· ≤ ·) := by rw [hsplit] at hxt; exact (List.pairwise_append.1 hxt).2.1
      obtain ⟨done, left, cells, e1, e2, e3, e4⟩ := linearLoop_spec xs r.e (linearCell m xs ys es xt) hxs (xs.length - 1) 0
        pre.length rest (by omega) hrs
        (fun x0 h0 x hx => by
          rw [List.getElem?_eq_getElem hne] at h0; cases h0
          exact le_trans hb (hge x hx))
        (fun k' x0 x1 _ h0 h1 j x hx hx0 hx1 => by
          have hj := (List.getElem?_eq_some_iff.1 hx).1
          obtain ⟨cell, h, _⟩ := linearCell_spec m xs ys es xt hxs hys hes hvar k' (pre.length + j) x x0 x1 h0 h1 hx0 hx1
            (by rw [hsplit, List.length_append]; omega)
          exact ⟨cell, h⟩)
      refine ⟨done, left, cells, e1, e2, ⟨e3.1, ?_⟩, fun x hx k' x0 x1 => e4 x hx k' x0 x1 (Nat.zero_le _)⟩
      intro i x cell hx hcell
      refine ⟨e3.2 i x cell hx hcell, ?_⟩
      have hi := (List.getElem?_eq_some_iff.1 hx).1
      rw [hsplit, e1]
      simp only [List.length_append]
      omega)
  refine ⟨cells, h1, h2.1, ?_⟩
  intro i x cell hx hcell
  have h3 := h2.2 i x cell hx hcell
  rw [Nat.zero_add] at h3
  rcases h3 with ⟨hbx, ⟨k, x0, x1, _, e0, e1, hx0e, hx0, hx1, hf⟩, hi⟩ | ⟨rfl, h4⟩
  · have hcov : Covered xs r x := ⟨hbx, k, x0, x1, e0, e1, hx0e, hx1⟩
    refine ⟨fun _ => ?_, fun h => absurd hcov h⟩
    obtain ⟨cell', hc1, hc2⟩ := linearCell_spec m xs ys es xt hxs hys hes hvar k i x x0 x1 e0 e1 hx0 hx1 hi
    rw [hf] at hc1; cases hc1
    exact hc2
  · refine ⟨fun hcov => ?_, fun _ => ?_⟩
    · obtain ⟨hbx, k, x0, x1, e0, e1, hx0e, hx1⟩ := hcov
      rcases h4 with h4 | h4
      · exact absurd hbx (not_le.2 h4)
      · exact absurd hx1 (not_le.2 (h4 k x0 x1 e0 e1 hx0e))
    · cases m <;> exact ⟨rfl, rfl, rfl⟩

/-- **C37.** What is covered: nothing before the range, all of the range (if the source has two samples at
least), and nothing beyond the first source sample after the range. -/
theorem C37_covered (xs : List ℝ) (r : Range ℝ) (hxs : xs.Pairwise (· < ·)) (h2 : 2 ≤ xs.length)
    (hb : xs[0] ≤ r.b) (he : r.e ≤ xs[xs.length - 1]) (x : ℝ) :
    (r.b ≤ x → x ≤ r.e → Covered xs r x) ∧ (Covered xs r x → r.b ≤ x) ∧
    (Covered xs r x → ∀ s ∈ xs, r.e < s → x ≤ s) := by
  refine ⟨?_, fun h => h.1, ?_⟩
  · intro h1 h3
    refine ⟨h1, ?_⟩
    by_cases hend : xs[xs.length - 1 - 1] ≤ r.e
    · refine ⟨xs.length - 1 - 1, _, _, List.getElem?_eq_getElem (by omega), List.getElem?_eq_getElem (by omega), hend, ?_⟩
      have : xs.length - 1 - 1 + 1 = xs.length - 1 := by omega
      simp only [this]
      exact le_trans h3 he
    · -- the last source sample that is in the range
      have hex : ∃ k, k + 1 < xs.length ∧ ∃ (h : k + 1 < xs.length), xs[k] ≤ r.e ∧ r.e < xs[k + 1] := by
        by_contra hno
        have : ∀ k, (hk : k < xs.length) → xs[k] ≤ r.e := by
          intro k
          induction k with
          | zero => intro _; exact le_trans hb (le_trans h1 h3)
          | succ k ih =>
            intro hk
            by_contra hlt
            exact hno ⟨k, hk, hk, ih (by omega), not_le.1 hlt⟩
        exact hend (this _ (by omega))
      obtain ⟨k, _, hk, hk1, hk2⟩ := hex
      exact ⟨k, _, _, List.getElem?_eq_getElem (by omega), List.getElem?_eq_getElem hk, hk1, le_trans h3 hk2.le⟩
  · rintro ⟨_, k, x0, x1, e0, e1, hx0, hx1⟩ s hs hes
    obtain ⟨j, hj, rfl⟩ := List.getElem_of_mem hs
    obtain ⟨hk0, rfl⟩ := List.getElem?_eq_some_iff.1 e0
    obtain ⟨hk1, rfl⟩ := List.getElem?_eq_some_iff.1 e1
    have hkj : k < j := by
      by_contra hlt
      rcases Nat.lt_or_eq_of_le (not_lt.1 hlt) with h | h
      · exact absurd (getElem_lt_of_lt hxs h hk0) (not_lt.2 (le_of_lt (lt_of_le_of_lt hx0 hes)))
      · subst h; exact absurd hx0 (not_le.2 hes)
    exact le_trans hx1 (getElem_le_of_le (pairwise_le_of_lt hxs) hkj hj)

/-- **C37, refusal.** A range that is not inside of the source axis is an error, and an empty source axis is
read out of bounds. -/
theorem C37_refuses (m : ErrMode) (xs ys es xt : List ℝ) (r : Range ℝ) (hne : 0 < xs.length)
    (h : r.b < xs[0] ∨ xs[xs.length - 1] < r.e) : linear m xs ys es r xt = .throw .INTERNAL_ERROR :=
  compute_refuses _ m xs r xt hne h

theorem C37_empty_source (m : ErrMode) (ys es xt : List ℝ) (r : Range ℝ) : linear m [] ys es r xt = .ub := rfl

/-- The full claim "mask 1 exactly inside of the range" is false: a target beyond the end of the range is
kept when the source interval that contains it begins in the range. -/
theorem C37_beyond_range_counterexample : ∃ cells,
    linear .no [0, 10] [1, 2] [1, 1] ⟨0, 1⟩ [5] = .ok cells ∧ ∃ cell, cells[0]? = some cell ∧ cell.mask = 1 ∧
    (⟨0, 1⟩ : Range ℝ).e < 5 := by
  obtain ⟨cells, h1, h2, h3⟩ := C37_linear_partial .no [0, 10] [1, 2] [1, 1] [5] ⟨0, 1⟩ (by simp) rfl rfl (by simp) (by simp)
    (by simp) (by simp) (by simp)
  have hl : 0 < cells.length := by rw [h2]; simp
  refine ⟨cells, h1, cells[0], List.getElem?_eq_getElem hl, ?_, by norm_num⟩
  exact ((h3 0 5 cells[0] rfl (List.getElem?_eq_getElem hl)).1
    ⟨by norm_num, 0, 0, 10, rfl, rfl, by norm_num, by norm_num⟩).1

/-- The step compensation of a target axis of one sample reads the sample before the first one. -/
theorem C37_single_target_variance (x0 x1 y0 y1 e0 e1 x b e : ℝ) (hx : x0 < x1)
    (h0 : x0 ≤ b) (hb : b ≤ x) (hxe : x ≤ e) (he : e ≤ x1) :
    linear .rebinVariance [x0, x1] [y0, y1] [e0, e1] ⟨b, e⟩ [x] = .ub := by
  have hd : x1 - x0 ≠ 0 := by linarith [sub_pos.2 hx]
  have hc : ¬ (b < x0 ∨ x1 < e) := by rintro (h | h) <;> linarith
  have h1 : ¬ x < b := by linarith
  have h2 : x0 ≤ e := by linarith
  have h3 : x ≤ x1 := by linarith
  have h4 : (x1 - x0 = 0) = False := by simpa using hd
  have hc1 : ¬ b < x0 := by linarith
  have hc2 : ¬ x1 < e := by linarith
  simp [linear, compute, Res.at_, Res.atZ, hc1, hc2, prefixLoop, h1, linearLoop, h2, whileLe, h3, linearCell, h4,
    stepCompensation]

/-- The hypotheses of `C37_linear_partial` hold for a spectrum and a range of interest, with samples before, in and
after the range. -/
example : ∃ (xs ys es xt : List ℝ) (r : Range ℝ), xs.Pairwise (· < ·) ∧ ys.length = xs.length ∧ es.length = xs.length ∧
    xt.Pairwise (· < ·) ∧ 2 ≤ xt.length ∧ ∃ h : 0 < xs.length, xs[0] ≤ r.b ∧ r.e ≤ xs[xs.length - 1] ∧
    Covered xs r 2 ∧ ¬ Covered xs r 6 ∧ ¬ Covered xs r (1 / 2) := by
  refine ⟨[0, 1, 3, 5], [1, 2, 1, 2], [1, 1, 1, 1], [1 / 2, 2, 6], ⟨1, 3⟩, ?_, rfl, rfl, ?_, by simp, by simp, by simp, by simp; norm_num, ?_, ?_, ?_⟩
  · norm_num
  · norm_num
  · exact ⟨by norm_num, 1, 1, 3, rfl, rfl, by norm_num, by norm_num⟩
  · rintro ⟨_, k, x0, x1, e0, e1, h1, h2⟩
    have : x1 ≤ 5 := by
      rcases k with _ | _ | _ | k <;> simp at e1 <;> linarith
    linarith
  · rintro ⟨h, _⟩
    norm_num at h

end Rebin
end Amazed
