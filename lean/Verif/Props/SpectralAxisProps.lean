import Verif.Model.SpectralAxis
import Verif.Model.Std
import Mathlib.Tactic.Linarith
import Mathlib.Tactic.NormNum
import Mathlib.Tactic.FieldSimp
import Mathlib.Tactic.Ring
import Mathlib.Data.Rat.Floor

/-! # C33-C36: spectral axis -/

set_option linter.unusedSectionVars false

namespace Amazed

/-! ## Masking (C34) -/

section
variable {κ α β : Type} [One κ] [DecidableEq κ]

/-- Specification: the elements whose mask is 1, in order. -/
def selected (m : List κ) (v : List α) : List α := ((m.zip v).filter (fun p => p.1 = 1)).map (·.2)

theorem maskVector_go_eq (m : List κ) (v : List α) : maskVector.go m v = selected m v := by
  induction m generalizing v with
  | nil => simp [maskVector.go, selected]
  | cons a m ih =>
    cases v with
    | nil => simp [maskVector.go, selected]
    | cons x v =>
      unfold maskVector.go
      rw [ih]
      unfold selected
      by_cases h : a = 1 <;> simp [h]

/-- **C34.** Masking keeps exactly the samples whose mask is 1, in their order; a mask of another size is
refused. -/
theorem C34_maskVector (m : List κ) (v : List α) :
    (m.length = v.length → maskVector m v = .ok (selected m v)) ∧
    (m.length ≠ v.length → maskVector m v = .throw .INTERNAL_ERROR) := by
  unfold maskVector
  constructor <;> intro h
  · rw [if_neg (by simpa using h), maskVector_go_eq]
  · rw [if_pos h]

/-- **C34.** The number of samples kept is the number of 1 in the mask. -/
theorem C34_count (m : List κ) (v r : List α) (h : maskVector m v = .ok r) : r.length = m.count 1 := by
  unfold maskVector at h
  split at h
  · cases h
  · rename_i hl
    cases h
    rw [not_not] at hl
    induction m generalizing v with
    | nil => simp [maskVector.go]
    | cons a m ih =>
      cases v with
      | nil => simp at hl
      | cons x v =>
        unfold maskVector.go
        by_cases h : a = 1
        · simp [h, ih v (by simpa using hl)]
        · simp [h, ih v (by simpa using hl)]

/-- **C34.** Vectors masked by the same mask stay aligned: masking the vector of pairs is the pairs of the
masked vectors. -/
theorem C34_aligned (m : List κ) (v : List α) (w : List β) (hv : m.length = v.length)
    (hw : m.length = w.length) : ∃ rv rw, maskVector m v = .ok rv ∧ maskVector m w = .ok rw ∧
      rv.length = rw.length ∧ maskVector m (v.zip w) = .ok (rv.zip rw) := by
  refine ⟨_, _, (C34_maskVector m v).1 hv, (C34_maskVector m w).1 hw, ?_, ?_⟩
  · rw [C34_count m v _ ((C34_maskVector m v).1 hv), C34_count m w _ ((C34_maskVector m w).1 hw)]
  · rw [(C34_maskVector m (v.zip w)).1 (by simp; omega)]
    congr 1
    induction m generalizing v w with
    | nil => simp [selected]
    | cons a m ih =>
      cases v with
      | nil => simp at hv
      | cons x v =>
        cases w with
        | nil => simp at hw
        | cons y w =>
          have := ih v w (by simpa using hv) (by simpa using hw)
          unfold selected at this ⊢
          by_cases h : a = 1 <;> simp_all

theorem selected_sublist (m : List κ) (v : List α) : (selected m v).Sublist v := by
  rw [← maskVector_go_eq]
  induction m generalizing v with
  | nil => simp [maskVector.go]
  | cons a m ih =>
    cases v with
    | nil => simp [maskVector.go]
    | cons x v =>
      unfold maskVector.go
      split
      · exact (ih v).cons_cons x
      · exact (ih v).cons x

end

example : maskVector [(1 : ℚ), 0, 1, 1/2] [10, 20, 30, 40] = .ok [10, 30] := by decide +kernel

/-! ## Sortedness cache (C33) -/

namespace SAxis

section
variable {K : Type} [Field K] [LinearOrder K]

theorem scan_iff (l : List K) : (stdIsSorted l && noAdjacentEqual l) = true ↔ l.Pairwise (· < ·) := by
  induction l with
  | nil => simp [stdIsSorted, noAdjacentEqual]
  | cons x l ih =>
    cases l with
    | nil => simp [stdIsSorted, noAdjacentEqual]
    | cons y l =>
      have hsplit : (stdIsSorted (x :: y :: l) && noAdjacentEqual (x :: y :: l)) = true ↔
          x < y ∧ (stdIsSorted (y :: l) && noAdjacentEqual (y :: l)) = true := by
        simp only [stdIsSorted, noAdjacentEqual, Bool.and_eq_true, Bool.not_eq_true',
          decide_eq_false_iff_not, not_lt]
        constructor
        · rintro ⟨⟨h1, h2⟩, h3, h4⟩
          exact ⟨lt_of_le_of_ne h1 h3, h2, h4⟩
        · rintro ⟨h1, h2, h3⟩
          exact ⟨⟨h1.le, h2⟩, h1.ne, h3⟩
      rw [hsplit, ih]
      constructor
      · rintro ⟨h1, h2⟩
        rw [List.pairwise_cons]
        refine ⟨?_, h2⟩
        intro c hc
        rcases List.mem_cons.1 hc with rfl | hc
        · exact h1
        · exact lt_trans h1 ((List.pairwise_cons.1 h2).1 c hc)
      · intro h
        obtain ⟨h1, h2⟩ := List.pairwise_cons.1 h
        exact ⟨h1 y (by simp), h2⟩

/-- Strictly increasing samples: what `isSorted()` is documented to tell. -/
def Increasing (l : List K) : Prop := l.Pairwise (· < ·)

theorem increasing_of_short {l : List K} (h : l.length < 2) : Increasing l := by
  unfold Increasing
  match l, h with
  | [], _ => exact List.Pairwise.nil
  | [x], _ => simp

/-- The cache never wrongly says sorted. -/
def Sound (a : SAxis K) : Prop := a.sorted = some true → Increasing a.samples

/-- The cache never wrongly says unsorted. -/
def Complete (a : SAxis K) : Prop := a.sorted = some false → ¬ Increasing a.samples

variable [IsStrictOrderedRing K]

theorem increasing_map {f : K → K} (hf : ∀ x y, x < y ↔ f x < f y) (l : List K) :
    Increasing (l.map f) ↔ Increasing l := by
  unfold Increasing
  rw [List.pairwise_map]
  constructor <;> intro h <;> refine h.imp ?_ <;> intro x y hxy
  · exact (hf x y).2 hxy
  · exact (hf x y).1 hxy

theorem not_increasing_map_anti {f : K → K} (hf : ∀ x y, x < y → f y < f x) {l : List K} (hl : Increasing l)
    (h2 : 2 ≤ l.length) : ¬ Increasing (l.map f) := by
  match l, h2 with
  | x :: y :: l, _ =>
    intro h
    unfold Increasing at h hl
    simp only [List.map_cons, List.pairwise_cons, List.mem_cons] at h hl
    have h1 := h.1 (f y) (Or.inl rfl)
    have h3 := hf x y (hl.1 y (Or.inl rfl))
    exact lt_asymm h1 h3

/-- Scaling: what happens to the samples when `f` is multiplication or division by `c`. -/
theorem scale_sound {f : K → K} {c : K} (hpos : 0 < c → ∀ x y, x < y ↔ f x < f y)
    {a : SAxis K} (ha : a.Sound) :
    scaleCache c a.samples.length a.sorted = some true → Increasing (a.samples.map f) := by
  intro h
  unfold scaleCache at h
  by_cases h0 : c = 0
  · rw [if_pos h0] at h
    have : a.samples.length < 2 := by simpa using h
    exact increasing_of_short (by simpa using this)
  · rw [if_neg h0] at h
    by_cases hn : c < 0
    · rw [if_pos hn] at h
      cases hs : a.sorted with
      | none => rw [hs] at h; cases h
      | some b => rw [hs] at h; cases b <;> cases h
    · rw [if_neg hn] at h
      have hp : 0 < c := lt_of_le_of_ne (not_lt.1 hn) (Ne.symm h0)
      exact (increasing_map (hpos hp) _).2 (ha h)

theorem mul_mono {c : K} (h : 0 < c) (x y : K) : x < y ↔ x * c < y * c := by
  rw [mul_lt_mul_iff_left₀ h]

theorem div_mono {c : K} (h : 0 < c) (x y : K) : x < y ↔ x / c < y / c := by
  rw [div_lt_div_iff_of_pos_right h]

theorem take_drop_increasing {l : List K} (h : Increasing l) (i n : Nat) : Increasing ((l.drop i).take n) :=
  List.Pairwise.sublist ((List.take_sublist n _).trans (List.drop_sublist i l)) h

theorem mul_sound {a : SAxis K} (ha : a.Sound) (c : K) : (a.mul c).Sound :=
  scale_sound (fun h => mul_mono h) ha

theorem div_sound {a b : SAxis K} (ha : a.Sound) (c : K) (h : a.div c = .ok b) : b.Sound := by
  unfold div at h
  split at h
  · cases h
  · cases h
    exact scale_sound (fun h => div_mono h) ha

theorem step_sound {a b : SAxis K} (ha : a.Sound) (o : Op K) (hraw : ∀ l, o ≠ .raw l)
    (h : a.step o = .ok b) : b.Sound := by
  cases o with
  | mul c => cases h; exact mul_sound ha c
  | div c => exact div_sound ha c h
  | mask m =>
    obtain ⟨l, h1, h2⟩ := Res.bind_eq_ok.1 (show (maskVector m a.samples >>= fun l => _) = _ from h)
    cases h2
    intro hs
    by_cases hm : m.length = a.samples.length
    · rw [(C34_maskVector m a.samples).1 hm] at h1
      cases h1
      simp only at hs ⊢
      split at hs
      · rename_i hl; exact increasing_of_short hl
      · exact List.Pairwise.sublist (selected_sublist m a.samples) (ha hs)
    · rw [(C34_maskVector m a.samples).2 hm] at h1
      cases h1
  | setSize n =>
    have : b = a.setSize n := by cases h; rfl
    subst this
    intro hs
    unfold setSize at hs ⊢
    simp only at hs ⊢
    split
    · refine increasing_of_short ?_
      simp; omega
    · rename_i hn
      rw [if_neg hn] at hs
      split at hs
      · cases hs
      · rename_i hlen
        rw [if_neg hlen]
        simp only at hs ⊢
        rw [show n - a.samples.length = 0 by omega, List.replicate_zero, List.append_nil]
        exact List.Pairwise.sublist (List.take_sublist _ _) (ha hs)
  | extract i j =>
    change a.extract i j = .ok b at h
    unfold extract at h
    split at h
    · cases h; intro _; exact List.Pairwise.nil
    · split at h
      · cases h
        intro hs
        exact take_drop_increasing (ha hs) _ _
      · cases h
  | offset c =>
    cases h
    intro hs
    exact (increasing_map (f := (· + c)) (fun x y => by simp) _).2 (ha hs)
  | write i v =>
    change a.write i v = .ok b at h
    unfold write at h
    split at h
    · cases h; intro hs; cases hs
    · cases h
  | assign l => cases h; intro hs; cases hs
  | clear => cases h; intro hs; cases hs
  | shift c d =>
    change a.shift c d = .ok b at h
    unfold shift at h
    split at h
    · cases h
    · cases d with
      | other => cases h
      | forward =>
        simp only at h
        split at h
        · cases h; exact ha
        · cases h; exact mul_sound ha c
      | backward =>
        simp only at h
        split at h
        · cases h; exact ha
        · exact div_sound ha c h
  | askSorted =>
    change Res.ok a.isSorted.2 = .ok b at h
    cases h
    unfold isSorted
    split
    · exact ha
    · intro hs
      simp only [Option.some.injEq] at hs
      exact (scan_iff a.samples).1 hs
  | raw l => exact absurd rfl (hraw l)

/-- **C33, no false positive.** Whatever the history of operations on a new axis (scaling, shifting,
offsetting, masking, resizing, extracting, writing, assigning, clearing, asking), if `isSorted()`
answers true then the samples are strictly increasing. (Mutation through the raw reference of
`GetSamplesVector` excluded: `C33_raw_counterexample`.) -/
theorem C33_isSorted_sound (l : List K) (os : List (Op K)) (hraw : ∀ o ∈ os, ∀ l', o ≠ .raw l')
    (a : SAxis K) (h : (ofList l).run os = .ok a) (ht : a.isSorted.1 = true) : Increasing a.samples := by
  have key : ∀ (os : List (Op K)) (a b : SAxis K), a.Sound → (∀ o ∈ os, ∀ l', o ≠ .raw l') →
      a.run os = .ok b → b.Sound := by
    intro os
    induction os with
    | nil => intro a b ha _ h; cases h; exact ha
    | cons o os ih =>
      intro a b ha hr h
      obtain ⟨c, h1, h2⟩ := Res.bind_eq_ok.1 (show (a.step o >>= fun b => b.run os) = _ from h)
      exact ih c b (step_sound ha o (hr o (by simp)) h1) (fun o' ho' => hr o' (by simp [ho'])) h2
  have hs := key os (ofList l) a (by intro h; cases h) hraw h
  unfold isSorted at ht
  split at ht
  · rename_i b hb
    simp only at ht
    subst ht
    exact hs hb
  · exact (scan_iff a.samples).1 ht

/-- Operations that cannot make the cached answer wrong from state `a`: scaling by a negative number needs
two samples or an unknown cache, and masking, shrinking or extracting needs an axis not known to be unsorted. -/
def SafeOp (a : SAxis K) : Op K → Prop
  | .mul c => c < 0 → 2 ≤ a.samples.length ∨ a.sorted = none
  | .div c => c < 0 → 2 ≤ a.samples.length ∨ a.sorted = none
  | .mask _ => a.sorted ≠ some false
  | .setSize n => a.sorted ≠ some false ∨ a.samples.length ≤ n
  | .extract _ _ => a.sorted ≠ some false
  | .raw _ => False
  | _ => True

/-- Every operation of the history is safe where it is applied. -/
def SafeRun (a : SAxis K) : List (Op K) → Prop
  | [] => True
  | o :: os => a.SafeOp o ∧ ∀ b, a.step o = .ok b → b.SafeRun os

theorem scale_complete {f : K → K} {c : K} (hpos : 0 < c → ∀ x y, x < y ↔ f x < f y)
    (hneg : c < 0 → ∀ x y, x < y → f y < f x) (hzero : c = 0 → ∀ x y, f x = f y)
    {a : SAxis K} (ha1 : a.Sound) (ha2 : a.Complete) (hs : c < 0 → 2 ≤ a.samples.length ∨ a.sorted = none) :
    scaleCache c a.samples.length a.sorted = some false → ¬ Increasing (a.samples.map f) := by
  intro h
  unfold scaleCache at h
  by_cases h0 : c = 0
  · rw [if_pos h0] at h
    have h2 : 1 < a.samples.length := by simpa using h
    have he := hzero h0
    intro hi
    unfold Increasing at hi
    match hl : a.samples, h2 with
    | x :: y :: l, _ =>
      rw [hl] at hi
      simp only [List.map_cons, List.pairwise_cons, List.mem_cons] at hi
      have := hi.1 (f y) (Or.inl rfl)
      rw [he x y] at this
      exact lt_irrefl _ this
  · rw [if_neg h0] at h
    by_cases hn : c < 0
    · rw [if_pos hn] at h
      cases hsd : a.sorted with
      | none => rw [hsd] at h; cases h
      | some b =>
        rw [hsd] at h
        cases b with
        | false => cases h
        | true =>
          rcases hs hn with h2 | h2
          · exact not_increasing_map_anti (hneg hn) (ha1 hsd) h2
          · rw [hsd] at h2; cases h2
    · rw [if_neg hn] at h
      have hp : 0 < c := lt_of_le_of_ne (not_lt.1 hn) (Ne.symm h0)
      intro hi
      exact ha2 h ((increasing_map (hpos hp) _).1 hi)

theorem mul_anti {c : K} (h : c < 0) (x y : K) (hxy : x < y) : y * c < x * c := mul_lt_mul_of_neg_right hxy h

theorem div_anti {c : K} (h : c < 0) (x y : K) (hxy : x < y) : y / c < x / c := div_lt_div_of_neg_of_lt h hxy

theorem mul_complete {a : SAxis K} (h1 : a.Sound) (h2 : a.Complete) (c : K)
    (hs : c < 0 → 2 ≤ a.samples.length ∨ a.sorted = none) : (a.mul c).Complete :=
  scale_complete (fun h => mul_mono h) (fun h => mul_anti h) (fun h x y => by simp [h]) h1 h2 hs

theorem div_complete {a b : SAxis K} (h1 : a.Sound) (h2 : a.Complete) (c : K)
    (hs : c < 0 → 2 ≤ a.samples.length ∨ a.sorted = none) (h : a.div c = .ok b) : b.Complete := by
  unfold div at h
  split at h
  · cases h
  · rename_i h0
    cases h
    exact scale_complete (fun h => div_mono h) (fun h => div_anti h) (fun h => absurd h h0) h1 h2 hs

theorem step_complete {a b : SAxis K} (h1 : a.Sound) (h2 : a.Complete) (o : Op K) (hs : a.SafeOp o)
    (h : a.step o = .ok b) : b.Complete := by
  cases o with
  | mul c => cases h; exact mul_complete h1 h2 c hs
  | div c => exact div_complete h1 h2 c hs h
  | mask m =>
    obtain ⟨l, h3, h4⟩ := Res.bind_eq_ok.1 (show (maskVector m a.samples >>= fun l => _) = _ from h)
    cases h4
    intro hf
    simp only at hf
    split at hf
    · cases hf
    · exact absurd hf hs
  | setSize n =>
    have : b = a.setSize n := by cases h; rfl
    subst this
    intro hf
    unfold setSize at hf ⊢
    simp only at hf ⊢
    by_cases hn : n < 2
    · rw [if_pos hn] at hf; cases hf
    · rw [if_neg hn] at hf ⊢
      by_cases hl : a.samples.length < n
      · rw [if_pos hl] at hf; cases hf
      · rw [if_neg hl] at hf ⊢
        simp only at hf ⊢
        rcases hs with hs | hs
        · exact absurd hf hs
        · rw [show n - a.samples.length = 0 by omega, List.replicate_zero, List.append_nil,
            List.take_of_length_le hs]
          exact h2 hf
  | extract i j =>
    change a.extract i j = .ok b at h
    unfold extract at h
    split at h
    · cases h; intro hf; exact absurd hf hs
    · split at h
      · cases h; intro hf; exact absurd hf hs
      · cases h
  | offset c =>
    cases h
    intro hf hi
    exact h2 hf ((increasing_map (f := (· + c)) (fun x y => by simp) _).1 hi)
  | write i v =>
    change a.write i v = .ok b at h
    unfold write at h
    split at h
    · cases h; intro hf; cases hf
    · cases h
  | assign l => cases h; intro hf; cases hf
  | clear => cases h; intro hf; cases hf
  | shift c d =>
    change a.shift c d = .ok b at h
    unfold shift at h
    split at h
    · cases h
    · rename_i hc
      cases d with
      | other => cases h
      | forward =>
        simp only at h
        split at h
        · cases h; exact h2
        · cases h; exact mul_complete h1 h2 c (fun h => absurd h hc)
      | backward =>
        simp only at h
        split at h
        · cases h; exact h2
        · exact div_complete h1 h2 c (fun h => absurd h hc) h
  | askSorted =>
    change Res.ok a.isSorted.2 = .ok b at h
    cases h
    unfold isSorted
    split
    · exact h2
    · intro hs
      simp only [Option.some.injEq] at hs
      intro hi
      rw [(scan_iff a.samples).2 hi] at hs
      cases hs
  | raw l => exact hs.elim

/-- **C33, exact answers.** Over every history of safe operations, `isSorted()` is true exactly when the
samples are strictly increasing. Missing from the claim: the operations excluded by `SafeOp`, for which
it is false (`C33_mask_counterexample`, `C33_setSize_counterexample`, `C33_extract_counterexample`,
`C33_negative_scale_counterexample`, `C33_raw_counterexample`). -/
theorem C33_isSorted_exact_partial (l : List K) (os : List (Op K)) (hsafe : (ofList l).SafeRun os)
    (a : SAxis K) (h : (ofList l).run os = .ok a) : a.isSorted.1 = true ↔ Increasing a.samples := by
  have key : ∀ (os : List (Op K)) (a b : SAxis K), a.Sound → a.Complete → a.SafeRun os →
      a.run os = .ok b → b.Sound ∧ b.Complete := by
    intro os
    induction os with
    | nil => intro a b h1 h2 _ h; cases h; exact ⟨h1, h2⟩
    | cons o os ih =>
      intro a b h1 h2 hr h
      obtain ⟨c, h3, h4⟩ := Res.bind_eq_ok.1 (show (a.step o >>= fun b => b.run os) = _ from h)
      obtain ⟨h5, h6⟩ := hr
      have hraw : ∀ l', o ≠ .raw l' := by rintro l' rfl; exact h5
      exact ih c b (step_sound h1 o hraw h3) (step_complete h1 h2 o h5 h3) (h6 c h3) h4
  obtain ⟨h1, h2⟩ := key os (ofList l) a (by intro h; cases h) (by intro h; cases h) hsafe h
  unfold isSorted
  split
  · rename_i b hb
    cases b with
    | true => simp [h1 hb]
    | false => simp [h2 hb]
  · exact scan_iff a.samples

/-! ### Where it is false -/

/-- Masking an unsorted axis can leave sorted samples; the answer stays false. -/
theorem C33_mask_counterexample : ∃ a : SAxis ℚ,
    (ofList [1, 3, 2, 4]).run [.askSorted, .mask [1, 1, 0, 1]] = .ok a ∧ a.samples = [1, 3, 4] ∧
    Increasing a.samples ∧ a.isSorted.1 = false :=
  ⟨⟨[1, 3, 4], some false, none⟩, by decide +kernel, rfl, by unfold Increasing; decide +kernel, rfl⟩

/-- Shrinking an unsorted axis. -/
theorem C33_setSize_counterexample : ∃ a : SAxis ℚ,
    (ofList [1, 2, 0]).run [.askSorted, .setSize 2] = .ok a ∧ a.samples = [1, 2] ∧
    Increasing a.samples ∧ a.isSorted.1 = false :=
  ⟨⟨[1, 2], some false, none⟩, by decide +kernel, rfl, by unfold Increasing; decide +kernel, rfl⟩

/-- Extracting a sorted part of an unsorted axis. -/
theorem C33_extract_counterexample : ∃ a : SAxis ℚ,
    (ofList [1, 2, 0]).run [.askSorted, .extract 0 1] = .ok a ∧ a.samples = [1, 2] ∧
    Increasing a.samples ∧ a.isSorted.1 = false :=
  ⟨⟨[1, 2], some false, none⟩, by decide +kernel, rfl, by unfold Increasing; decide +kernel, rfl⟩

/-- Scaling an axis of one sample by a negative number. -/
theorem C33_negative_scale_counterexample : ∃ a : SAxis ℚ,
    (ofList [1]).run [.askSorted, .mul (-1)] = .ok a ∧ a.samples = [-1] ∧
    Increasing a.samples ∧ a.isSorted.1 = false :=
  ⟨⟨[-1], some false, none⟩, by decide +kernel, rfl, by unfold Increasing; decide +kernel, rfl⟩

/-- Changing the samples through the reference of the non-const `GetSamplesVector`. -/
theorem C33_raw_counterexample : ∃ a : SAxis ℚ,
    (ofList [1, 2]).run [.askSorted, .raw [2, 1]] = .ok a ∧ a.samples = [2, 1] ∧
    ¬ Increasing a.samples ∧ a.isSorted.1 = true :=
  ⟨⟨[2, 1], some true, none⟩, by decide +kernel, rfl, by unfold Increasing; decide +kernel, rfl⟩

/-- A safe history. -/
example : (ofList [1, 2, 3] : SAxis ℚ).SafeRun [.askSorted, .mul (-1), .mul (-2), .mask [1, 0, 1]] ∧
    (ofList [1, 2, 3] : SAxis ℚ).run [.askSorted, .mul (-1), .mul (-2), .mask [1, 0, 1]] =
      .ok ⟨[2, 6], none, none⟩ := by
  refine ⟨?_, by decide +kernel⟩
  refine ⟨trivial, fun b hb => ?_⟩
  have : b = ⟨[1, 2, 3], some true, none⟩ := by
    have h : (ofList [1, 2, 3] : SAxis ℚ).step .askSorted = .ok ⟨[1, 2, 3], some true, none⟩ := by decide +kernel
    rw [h] at hb; cases hb; rfl
  subst this
  refine ⟨fun _ => Or.inl (by decide), fun b hb => ?_⟩
  cases hb
  refine ⟨fun _ => Or.inl (by decide), fun b hb => ?_⟩
  cases hb
  refine ⟨?_, fun b hb => trivial⟩
  show _ ≠ some false
  decide +kernel

/-! ## Lambda range clamping (C35) -/

/-- **C35.** On an axis of at least two samples with different ends, clamping a range succeeds exactly when the
range and the axis range overlap in more than a point; the result is then their intersection. -/
theorem C35_clamp (l : List K) (h2 : 2 ≤ l.length) (hne : l[0] ≠ l[l.length - 1]) (r : Range K) :
    ((∃ x y, x < y ∧ r.b ≤ x ∧ y ≤ r.e ∧ l[0] ≤ x ∧ y ≤ l[l.length - 1]) →
      ∃ c, clampLambdaRange l r = .ok c ∧ c.b < c.e ∧
        ∀ x, (c.b ≤ x ∧ x ≤ c.e) ↔ ((r.b ≤ x ∧ x ≤ r.e) ∧ (l[0] ≤ x ∧ x ≤ l[l.length - 1]))) ∧
    ((¬ ∃ x y, x < y ∧ r.b ≤ x ∧ y ≤ r.e ∧ l[0] ≤ x ∧ y ≤ l[l.length - 1]) →
      clampLambdaRange l r = .throw .INVALID_WAVELENGTH_RANGE) := by
  have heff : lambdaRange l = ⟨l[0], l[l.length - 1]⟩ := by
    unfold lambdaRange; rw [dif_neg (by omega)]
  set f := l[0]
  set b := l[l.length - 1]
  have hstart : (if r.b < f then f else r.b) = max r.b f := by
    split
    · rename_i h; rw [max_eq_right h.le]
    · rename_i h; rw [max_eq_left (not_lt.1 h)]
  have hstop : (if r.e > b then b else r.e) = min r.e b := by
    split
    · rename_i h; rw [min_eq_right h.le]
    · rename_i h; rw [min_eq_left (not_lt.1 h)]
  have hform : clampLambdaRange l r = if r.isEmpty then .throw .INVALID_WAVELENGTH_RANGE
      else if min r.e b - max r.b f ≤ 0 then .throw .INVALID_WAVELENGTH_RANGE
      else .ok ⟨max r.b f, min r.e b⟩ := by
    unfold clampLambdaRange
    rw [heff]
    simp only [hstart, hstop]
    have : (⟨f, b⟩ : Range K).isEmpty = false := by simp [Range.isEmpty, hne]
    rw [this]
    simp
  constructor
  · rintro ⟨x, y, hxy, h3, h4, h5, h6⟩
    have hlt : max r.b f < min r.e b := by
      apply lt_of_le_of_lt (max_le h3 h5)
      exact lt_of_lt_of_le hxy (le_min h4 h6)
    refine ⟨⟨max r.b f, min r.e b⟩, ?_, hlt, ?_⟩
    · rw [hform, if_neg, if_neg (by rw [not_le, sub_pos]; exact hlt)]
      simp only [Range.isEmpty, beq_iff_eq]
      have : r.b < r.e := lt_of_le_of_lt h3 (lt_of_lt_of_le hxy h4)
      exact this.ne
    · intro z
      simp only [max_le_iff, le_min_iff]
      tauto
  · intro hno
    rw [hform]
    by_cases he : r.isEmpty
    · rw [if_pos he]
    · rw [if_neg he, if_pos]
      rw [sub_nonpos]
      by_contra hlt
      rw [not_le] at hlt
      exact hno ⟨max r.b f, min r.e b, hlt, le_max_left _ _, min_le_left _ _, le_max_right _ _, min_le_right _ _⟩

/-- **C35.** An axis with fewer than two samples, or with equal ends, is refused; so is an empty range. -/
theorem C35_clamp_refuses (l : List K) (r : Range K) :
    (r.b = r.e → clampLambdaRange l r = .throw .INVALID_WAVELENGTH_RANGE) ∧
    (r.b ≠ r.e → (l.length < 2 ∨ ∃ x, l.head? = some x ∧ l.getLast? = some x) →
      clampLambdaRange l r = .throw .INVALID_SPECTRUM_WAVELENGTH) := by
  unfold clampLambdaRange
  constructor
  · intro h
    simp [Range.isEmpty, h]
  · intro h h1
    have he : (lambdaRange l).isEmpty = true := by
      unfold lambdaRange
      split
      · simp [Range.isEmpty]
      · rename_i hl
        rcases h1 with h1 | ⟨x, h2, h3⟩
        · omega
        · have hl0 : 0 < l.length := by omega
          rw [List.head?_eq_getElem?, List.getElem?_eq_getElem hl0] at h2
          rw [List.getLast?_eq_getElem?, List.getElem?_eq_getElem (by omega)] at h3
          cases h2
          injection h3 with h3
          simp [Range.isEmpty, h3]
    have hr : r.isEmpty = false := by simp [Range.isEmpty, h]
    simp [he, hr]

example : clampLambdaRange [1, 2, 3] (⟨2, 7⟩ : Range ℚ) = .ok ⟨2, 3⟩ := by decide +kernel
example : clampLambdaRange [1, 2, 3] (⟨3, 7⟩ : Range ℚ) = .throw .INVALID_WAVELENGTH_RANGE := by decide +kernel

/-! ## Masks and indices (C36) -/

/-- **C36.** The mask has one entry per sample, 1 exactly for the samples in the closed range. -/
theorem C36_getMask (l : List K) (r : Range K) :
    (getMask l r).length = l.length ∧
    ∀ i (h : i < l.length) (h' : i < (getMask l r).length),
      ((getMask l r)[i] = 1 ↔ r.b ≤ l[i] ∧ l[i] ≤ r.e) ∧ ((getMask l r)[i] = 1 ∨ (getMask l r)[i] = 0) := by
  refine ⟨by simp [getMask], ?_⟩
  intro i h h'
  simp only [getMask, List.getElem_map]
  split <;> rename_i hc <;> simp [hc]

open Classical in
/-- **C36.** With a mask at least as long as the axis, the overlap fraction is the fraction of the in-range samples
whose mask is not 0 (0 when no sample is in range). -/
theorem C36_overlapFraction (l : List K) (r : Range K) (om : List Nat) (hlen : l.length ≤ om.length) :
    overlapFraction l r om = .ok
      ((((l.zip om).filter (fun p => decide (r.b ≤ p.1 ∧ p.1 ≤ r.e ∧ p.2 ≠ 0))).length : K) /
        ((l.filter (fun x => decide (r.b ≤ x ∧ x ≤ r.e))).length : K)) := by
  have key : ∀ (l : List K) (om : List Nat) (s o : Nat), l.length ≤ om.length →
      overlapRates r l om (s, o) = .ok (s + (l.filter (fun x => decide (r.b ≤ x ∧ x ≤ r.e))).length,
        o + ((l.zip om).filter (fun p => decide (r.b ≤ p.1 ∧ p.1 ≤ r.e ∧ p.2 ≠ 0))).length) := by
    intro l
    induction l with
    | nil => intro om s o _; simp [overlapRates]
    | cons x l ih =>
      intro om s o hlen
      cases om with
      | nil => simp at hlen
      | cons m om =>
        have hlen' : l.length ≤ om.length := by simpa using hlen
        unfold overlapRates
        by_cases hx : r.b ≤ x ∧ x ≤ r.e
        · rw [if_pos hx]
          simp only
          rw [ih om _ _ hlen']
          by_cases hm : m = 0
          · simp [hx, hm]; omega
          · simp [hx, hm]; omega
        · rw [if_neg hx]
          simp only [List.tail_cons]
          rw [ih om _ _ hlen']
          have h1 : ¬ (r.b ≤ x ∧ x ≤ r.e ∧ m ≠ 0) := fun h => hx ⟨h.1, h.2.1⟩
          simp only [List.filter_cons, List.zip_cons_cons, decide_eq_true_eq, if_neg hx, if_neg h1]
  unfold overlapFraction
  rw [key l om 0 0 hlen, Res.bind_ok]
  simp only [Nat.zero_add]
  split
  · rename_i h
    rw [h]; simp
  · rfl

/-- A mask shorter than the axis is read past its end as soon as a sample beyond it is in range. -/
theorem C36_overlap_short_mask : overlapFraction [1, 2] (⟨0, 3⟩ : Range ℚ) [1] = .ub := by decide +kernel

/-- **C36.** On a non empty sorted axis, the index at a wavelength is in the axis; it is the first sample at or after
the wavelength if there is one, else the last sample. -/
theorem C36_indexAt (l : List K) (hs : Increasing l) (hne : l ≠ []) (w : K) :
    ∃ i, ∃ h : i < l.length, indexAt l w = .ok i ∧ (∀ j (hj : j < l.length), j < i → l[j] < w) ∧
      (w ≤ l[i] ∨ (i = l.length - 1 ∧ ∀ x ∈ l, x < w)) := by
  have hpos : 0 < l.length := List.length_pos_iff.2 hne
  have e0 : l[0]? = some l[0] := List.getElem?_eq_getElem hpos
  have e1 : l[l.length - 1]? = some (l[l.length - 1]'(by omega)) := List.getElem?_eq_getElem _
  unfold indexAt
  rw [e0, e1]
  simp only
  by_cases h1 : w ≤ l[0]
  · rw [if_pos h1]
    exact ⟨0, hpos, rfl, fun j _ hj => by omega, Or.inl h1⟩
  · rw [if_neg h1]
    by_cases h2 : w ≥ l[l.length - 1]
    · rw [if_pos h2]
      refine ⟨l.length - 1, by omega, rfl, ?_, ?_⟩
      · intro j hj hlt
        exact lt_of_lt_of_le (getElem_lt_of_lt hs hlt (by omega)) h2
      · rcases eq_or_lt_of_le h2 with h3 | h3
        · left; rw [h3]
        · right
          refine ⟨rfl, ?_⟩
          intro x hx
          obtain ⟨k, hk, rfl⟩ := List.getElem_of_mem hx
          exact lt_of_le_of_lt (getElem_le_of_le (pairwise_le_of_lt hs) (by omega) (by omega)) h3
    · rw [if_neg h2]
      have hlt : lowerBound l w < l.length := by
        by_contra hge
        have : l.length - 1 < lowerBound l w := by omega
        have h3 := lt_of_lt_lowerBound this (by omega)
        exact h2 h3.le
      refine ⟨lowerBound l w, hlt, rfl, ?_, Or.inl (le_getElem_lowerBound hlt)⟩
      intro j hj hji
      exact lt_of_lt_lowerBound hji hj

/-- Reading an empty axis is undefined. -/
theorem C36_indexAt_empty (w : K) : indexAt ([] : List K) w = .ub := rfl

/-- **C36.** The indices of a range `[b, e]` with `b ≤ e` are ordered and in the axis. -/
theorem C36_indexesAt (l : List K) (hs : Increasing l) (hne : l ≠ []) (r : Range K) (hr : r.b ≤ r.e) :
    ∃ i j, indexesAt l r = .ok (i, j) ∧ i ≤ j ∧ j < l.length := by
  obtain ⟨i, hi, h1, h2, h3⟩ := C36_indexAt l hs hne r.b
  obtain ⟨j, hj, h4, h5, h6⟩ := C36_indexAt l hs hne r.e
  refine ⟨i, j, ?_, ?_, hj⟩
  · unfold indexesAt; rw [h1, Res.bind_ok, h4, Res.bind_ok]
  · by_contra hlt
    have h7 := h2 j hj (by omega)
    rcases h6 with h6 | ⟨h6, h8⟩
    · exact absurd (lt_of_lt_of_le h7 hr) (not_lt.2 h6)
    · omega

example : Increasing ([1, 2, 4] : List ℚ) ∧ indexAt ([1, 2, 4] : List ℚ) 3 = .ok 2 ∧ indexAt ([1, 2, 4] : List ℚ) 9 = .ok 2 :=
  ⟨by unfold Increasing; decide +kernel, by decide +kernel, by decide +kernel⟩

end
end SAxis
end Amazed
