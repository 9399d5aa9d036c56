import Mathlib.Tactic.Common
import Mathlib.Order.Basic
import Mathlib.Tactic.Linarith
import Verif.Props.RangeProps
import Verif.Model.Extremum

/-! # C19: which points the peak search reports -/

namespace Amazed
namespace Extremum
set_option linter.unusedSectionVars false
variable {α : Type} [LinearOrder α]

/-! ## Specification -/

/-- `[s, t]` is a plateau of the values `f b … f e` from which the values go down on both sides; a side that
is an end of `[b, e]` counts only if peaks at the border are wanted. A strict local maximum is the case `s = t`. -/
structure HighPlateau (border : Bool) (f : Nat → α) (b e s t : Nat) : Prop where
  ge : b ≤ s
  le : s ≤ t
  le' : t ≤ e
  const : ∀ k, s ≤ k → k ≤ t → f k = f s
  left : (s = b ∧ border = true) ∨ (b < s ∧ f (s - 1) < f s)
  right : (t = e ∧ border = true) ∨ (t < e ∧ f (t + 1) < f t)

/-- `[s, t]` is a shelf: a maximal flat run of at least two values at the end of which the values go down (or the
data end, if borders count) but which is not preceded by a rise (nor starts the data, if borders count). -/
structure Shelf (border : Bool) (f : Nat → α) (b e s t : Nat) : Prop where
  ge : b ≤ s
  lt : s < t
  le' : t ≤ e
  const : ∀ k, s ≤ k → k ≤ t → f k = f s
  maximal : b < s → f (s - 1) ≠ f s
  noRise : (s = b → border = false) ∧ (b < s → ¬ f (s - 1) < f s)
  right : (t = e ∧ border = true) ∨ (t < e ∧ f (t + 1) < f t)

/-- The index reported for the plateau `[s, t]`: its middle, the lower one of two. -/
def mid (s t : Nat) : Nat := t - (t - s + 1) / 2

/-- The values at the indices `b … e` of `y` are the numbers `f b … f e`, none is NaN. -/
def Reads (y : List (Option α)) (f : Nat → α) (b e : Nat) : Prop :=
  ∀ k, b ≤ k → k ≤ e → y[k]? = some (some (f k))

/-! ## Proof -/

/-- Loop invariant before index `i`. -/
structure ScanInv (border : Bool) (f : Nat → α) (b e i : Nat) (s : Scan) : Prop where
  mem : ∀ k, k ∈ s.peaks ↔ ∃ u v, HighPlateau border f b e u v ∧ v < i ∧ k = mid u v
  sorted : s.peaks.Pairwise (· < ·)
  nflat : f (i - 1) ≠ f i → s.plank = false ∧ s.cnt = 0
  flat : f (i - 1) = f i → ∃ u, b ≤ u ∧ u < i ∧ (∀ k, u ≤ k → k ≤ i → f k = f u) ∧
    (b < u → f (u - 1) ≠ f u) ∧
    (((u = b ∧ border = true) ∨ (b < u ∧ f (u - 1) < f u)) → s.plank = true ∧ s.cnt = i - u) ∧
    (¬ ((u = b ∧ border = true) ∨ (b < u ∧ f (u - 1) < f u)) → s.plank = false)

theorem mid_bounds {s t : Nat} (h : s ≤ t) : s ≤ mid s t ∧ mid s t ≤ t := by
  unfold mid; omega

/-- Two high plateaus ending at different places are disjoint. -/
theorem HighPlateau.disjoint {border : Bool} {f : Nat → α} {b e s t s' t' : Nat}
    (h : HighPlateau border f b e s t) (h' : HighPlateau border f b e s' t') (hlt : t < t') : t < s' := by
  by_contra hc
  have h1 := h'.const t (by omega) (by omega)
  have h2 := h'.const (t + 1) (by omega) (by omega)
  rcases h.right with ⟨h3, -⟩ | ⟨-, h3⟩
  · have := h'.le'; omega
  · rw [h1, h2] at h3; exact absurd h3 (lt_irrefl _)

/-- Pushing the peak of the plateau that ends at `i`. -/
theorem push_plateau {border : Bool} {f : Nat → α} {b e i u : Nat} {l : List Nat}
    (hm : ∀ k, k ∈ l ↔ ∃ u v, HighPlateau border f b e u v ∧ v < i ∧ k = mid u v)
    (hs : l.Pairwise (· < ·)) (hp : HighPlateau border f b e u i) :
    (∀ k, k ∈ l ++ [mid u i] ↔ ∃ u v, HighPlateau border f b e u v ∧ v < i + 1 ∧ k = mid u v) ∧
    (l ++ [mid u i]).Pairwise (· < ·) := by
  constructor
  · intro k
    simp only [List.mem_append, hm, List.mem_singleton]
    constructor
    · rintro (⟨u', v', h1, h2, h3⟩ | rfl)
      · exact ⟨u', v', h1, by omega, h3⟩
      · exact ⟨u, i, hp, by omega, rfl⟩
    · rintro ⟨u', v', h1, h2, h3⟩
      rcases Nat.lt_or_eq_of_le (Nat.le_of_lt_succ h2) with h4 | h4
      · exact Or.inl ⟨u', v', h1, h4, h3⟩
      · subst h4
        right
        have : u' = u := by
          rcases Nat.lt_trichotomy u' u with h | h | h
          · exfalso
            have h5 := h1.const u (by omega) hp.le
            have h6 := h1.const (u - 1) (by omega) (by have := hp.le; omega)
            rcases hp.left with ⟨h7, -⟩ | ⟨h7, h8⟩
            · have := h1.ge; omega
            · rw [h5, h6] at h8; exact lt_irrefl _ h8
          · exact h
          · exfalso
            have h5 := hp.const u' (by omega) h1.le
            have h6 := hp.const (u' - 1) (by omega) (by have := h1.le; omega)
            rcases h1.left with ⟨h7, -⟩ | ⟨h7, h8⟩
            · have := hp.ge; omega
            · rw [h5, h6] at h8; exact lt_irrefl _ h8
        rw [h3, this]
  · rw [List.pairwise_append]
    refine ⟨hs, List.pairwise_singleton _ _, ?_⟩
    intro k hk m hm'
    rw [List.mem_singleton] at hm'
    subst hm'
    obtain ⟨u', v', h1, h2, rfl⟩ := (hm k).1 hk
    have h3 := h1.disjoint hp h2
    have h4 := mid_bounds h1.le
    have h5 := mid_bounds hp.le
    omega

/-- No plateau ends at `i`. -/
theorem keep_plateau {border : Bool} {f : Nat → α} {b e i : Nat} {l : List Nat}
    (hm : ∀ k, k ∈ l ↔ ∃ u v, HighPlateau border f b e u v ∧ v < i ∧ k = mid u v)
    (hp : ∀ u, ¬ HighPlateau border f b e u i) :
    (∀ k, k ∈ l ↔ ∃ u v, HighPlateau border f b e u v ∧ v < i + 1 ∧ k = mid u v) := by
  intro k
  rw [hm]
  constructor
  · rintro ⟨u', v', h1, h2, h3⟩; exact ⟨u', v', h1, by omega, h3⟩
  · rintro ⟨u', v', h1, h2, h3⟩
    rcases Nat.lt_or_eq_of_le (Nat.le_of_lt_succ h2) with h4 | h4
    · exact ⟨u', v', h1, h4, h3⟩
    · subst h4; exact absurd h1 (hp u')

theorem scanStep_inv {border : Bool} {f : Nat → α} {b e i : Nat} {s : Scan} (hbi : b < i) (hie : i < e)
    (hns : ∀ u v, ¬ Shelf border f b e u v) (h : ScanInv border f b e i s) :
    ∃ s', scanStep (some (f (i - 1))) (some (f i)) (some (f (i + 1))) i s = .ok s' ∧
      ScanInv border f b e (i + 1) s' := by
  have hi1 : i + 1 - 1 = i := by omega
  rcases lt_trichotomy (f (i - 1)) (f i) with hab | hab | hab
  · -- rise before
    have hne : f (i - 1) ≠ f i := ne_of_lt hab
    obtain ⟨hpl, hcnt⟩ := h.nflat hne
    rcases lt_trichotomy (f i) (f (i + 1)) with hbc | hbc | hbc
    · -- rise after
      refine ⟨s, by simp [scanStep, ltv, eqv, hab, hne, not_lt.2 hbc.le, ne_of_lt hbc], keep_plateau h.mem ?_, h.sorted, ?_, ?_⟩
      · intro u hp
        rcases hp.right with ⟨h1, -⟩ | ⟨-, h1⟩
        · omega
        · exact absurd h1 (not_lt.2 hbc.le)
      · intro _; exact ⟨hpl, hcnt⟩
      · rw [hi1]; intro h1; exact absurd h1 (ne_of_lt hbc)
    · -- flat after
      refine ⟨{ s with plank := true, cnt := s.cnt + 1 }, by simp [scanStep, ltv, eqv, hab, ← hbc], keep_plateau h.mem ?_, h.sorted, ?_, ?_⟩
      · intro u hp
        rcases hp.right with ⟨h1, -⟩ | ⟨-, h1⟩
        · omega
        · rw [hbc] at h1; exact absurd h1 (lt_irrefl _)
      · rw [hi1]; intro h1; exact absurd hbc h1
      · intro _
        refine ⟨i, by omega, by omega, ?_, fun _ => hne, ?_, ?_⟩
        · intro k hk1 hk2
          rcases Nat.lt_or_eq_of_le hk2 with h1 | h1
          · have : k = i := by omega
            rw [this]
          · rw [h1]; exact hbc.symm
        · intro _
          simp only [hcnt, true_and]; omega
        · intro h1; exact absurd (Or.inr ⟨hbi, hab⟩) h1
    · -- strict peak
      have hp : HighPlateau border f b e i i :=
        ⟨by omega, le_refl _, by omega, fun k h1 h2 => by rw [show k = i by omega],
          Or.inr ⟨hbi, hab⟩, Or.inr ⟨hie, hbc⟩⟩
      obtain ⟨h1, h2⟩ := push_plateau h.mem h.sorted hp
      have hmid : mid i i = i := by unfold mid; omega
      rw [hmid] at h1 h2
      refine ⟨{ s with peaks := s.peaks ++ [i] }, by simp [scanStep, ltv, hab, hbc], h1, h2,
        fun _ => ⟨hpl, hcnt⟩, ?_⟩
      rw [hi1]; intro h3; exact absurd h3.symm (ne_of_lt hbc)
  · -- flat before
    obtain ⟨u, hu1, hu2, hu3, hu4, hu5, hu6⟩ := h.flat hab
    rcases lt_trichotomy (f i) (f (i + 1)) with hbc | hbc | hbc
    · refine ⟨{ s with plank := false, cnt := 0 }, by simp [scanStep, ltv, eqv, hab, hbc, not_lt.2 hbc.le], keep_plateau h.mem ?_, h.sorted, fun _ => ⟨rfl, rfl⟩, ?_⟩
      · intro u hp
        rcases hp.right with ⟨h1, -⟩ | ⟨-, h1⟩
        · omega
        · exact absurd h1 (not_lt.2 hbc.le)
      · rw [hi1]; intro h1; exact absurd h1 (ne_of_lt hbc)
    · refine ⟨{ s with cnt := s.cnt + 1 }, by simp [scanStep, ltv, eqv, hab, ← hbc], keep_plateau h.mem ?_, h.sorted, ?_, ?_⟩
      · intro u hp
        rcases hp.right with ⟨h1, -⟩ | ⟨-, h1⟩
        · omega
        · rw [hbc] at h1; exact absurd h1 (lt_irrefl _)
      · rw [hi1]; intro h1; exact absurd hbc h1
      · intro _
        refine ⟨u, hu1, by omega, ?_, hu4, ?_, hu6⟩
        · intro k hk1 hk2
          rcases Nat.lt_or_eq_of_le hk2 with h1 | h1
          · exact hu3 k hk1 (by omega)
          · rw [h1, ← hbc]; exact hu3 i (by omega) (le_refl _)
        · intro h1
          obtain ⟨h2, h3⟩ := hu5 h1
          exact ⟨h2, by simp only [h3]; omega⟩
    · -- down after a flat run
      by_cases hr : (u = b ∧ border = true) ∨ (b < u ∧ f (u - 1) < f u)
      · obtain ⟨hpl, hcnt⟩ := hu5 hr
        have hp : HighPlateau border f b e u i :=
          ⟨hu1, by omega, by omega, hu3, hr, Or.inr ⟨hie, hbc⟩⟩
        obtain ⟨h1, h2⟩ := push_plateau h.mem h.sorted hp
        have hmid : mid u i = i - (s.cnt + 1) / 2 := by unfold mid; rw [hcnt]
        rw [hmid] at h1 h2
        refine ⟨⟨false, 0, s.peaks ++ [i - (s.cnt + 1) / 2]⟩, ?_, h1, h2, fun _ => ⟨rfl, rfl⟩, ?_⟩
        · have : ¬ (s.cnt + 1) / 2 > i := by omega
          simp [scanStep, ltv, eqv, hab, hbc, hpl, this]
        rw [hi1]; intro h3; exact absurd h3.symm (ne_of_lt hbc)
      · exfalso
        rw [not_or] at hr
        refine hns u i ⟨hu1, hu2, by omega, hu3, hu4, ⟨?_, ?_⟩, Or.inr ⟨hie, hbc⟩⟩
        · intro h1
          have := hr.1
          rw [not_and] at this
          simpa using this h1
        · intro h1 h2; exact hr.2 ⟨h1, h2⟩
  · -- fall before
    have hne : f (i - 1) ≠ f i := (ne_of_lt hab).symm
    obtain ⟨hpl, hcnt⟩ := h.nflat hne
    refine ⟨s, by simp [scanStep, ltv, eqv, not_lt.2 hab.le, hne], keep_plateau h.mem ?_, h.sorted, fun _ => ⟨hpl, hcnt⟩, ?_⟩
    · intro u hp
      rcases Nat.lt_or_eq_of_le hp.le with h1 | h1
      · have h2 := hp.const (i - 1) (by omega) (by omega)
        have h3 := hp.const i (by omega) (by omega)
        exact hne (h2.trans h3.symm)
      · subst h1
        rcases hp.left with ⟨h2, -⟩ | ⟨-, h2⟩
        · omega
        · exact absurd h2 (not_lt.2 hab.le)
    · rw [hi1]
      intro h1
      refine ⟨i, by omega, by omega, ?_, fun _ => hne, ?_, fun _ => hpl⟩
      · intro k hk1 hk2
        rcases Nat.lt_or_eq_of_le hk2 with h2 | h2
        · rw [show k = i by omega]
        · rw [h2]; exact h1.symm
      · rintro (⟨h2, -⟩ | ⟨-, h2⟩)
        · omega
        · exact absurd h2 (not_lt.2 hab.le)

theorem scanLoop_inv {border : Bool} {f : Nat → α} {b e : Nat} {y : List (Option α)} (hy : Reads y f b e)
    (hns : ∀ u v, ¬ Shelf border f b e u v) (n : Nat) : ∀ (i : Nat) (s : Scan), b < i → i + n = e →
    ScanInv border f b e i s → ∃ s', scanLoop y i s n = .ok s' ∧ ScanInv border f b e e s' := by
  induction n with
  | zero =>
    intro i s hbi hie h
    have : e = i := by omega
    subst this
    exact ⟨s, rfl, h⟩
  | succ n ih =>
    intro i s hbi hie h
    obtain ⟨s', h1, h2⟩ := scanStep_inv hbi (by omega) hns h
    obtain ⟨s'', h3, h4⟩ := ih (i + 1) s' (by omega) (by omega) h2
    refine ⟨s'', ?_, h4⟩
    unfold scanLoop
    rw [hy (i - 1) (by omega) (by omega), hy i (by omega) (by omega), hy (i + 1) (by omega) (by omega)]
    simp only [h1, h3]

theorem scanFirst_inv {border : Bool} {f : Nat → α} {b e : Nat} (hbe : b + 1 < e) :
    ScanInv border f b e (b + 1) (scanFirst border (some (f b)) (some (f (b + 1))) b) := by
  have hb1 : b + 1 - 1 = b := by omega
  have hnone : ∀ (hn : ¬ (border = true ∧ f (b + 1) < f b)) (k : Nat),
      k ∈ ([] : List Nat) ↔ ∃ u v, HighPlateau border f b e u v ∧ v < b + 1 ∧ k = mid u v := by
    intro hn k
    simp only [List.not_mem_nil, false_iff]
    rintro ⟨u, v, h1, h2, -⟩
    have := h1.ge; have := h1.le
    have hv : v = b := by omega
    have hu : u = b := by omega
    subst hv; subst hu
    rcases h1.right with ⟨h3, -⟩ | ⟨-, h3⟩
    · omega
    · rcases h1.left with ⟨-, h4⟩ | ⟨h4, -⟩
      · exact hn ⟨h4, h3⟩
      · omega
  by_cases hd : border = true ∧ f (b + 1) < f b
  · rw [show scanFirst border (some (f b)) (some (f (b + 1))) b = ⟨false, 0, [b]⟩ by
      simp [scanFirst, ltv, hd.1, hd.2]]
    have hp : HighPlateau border f b e b b :=
      ⟨le_refl _, le_refl _, by omega, fun k h1 h2 => by rw [show k = b by omega],
        Or.inl ⟨rfl, hd.1⟩, Or.inr ⟨by omega, hd.2⟩⟩
    refine ⟨?_, List.pairwise_singleton _ _, fun _ => ⟨rfl, rfl⟩, ?_⟩
    · intro k
      simp only [List.mem_singleton]
      constructor
      · rintro rfl; exact ⟨k, k, hp, by omega, by unfold mid; omega⟩
      · rintro ⟨u, v, h1, h2, rfl⟩
        have := h1.ge; have := h1.le; have := mid_bounds h1.le
        omega
    · rw [hb1]; intro h1; rw [h1] at hd; exact absurd hd.2 (lt_irrefl _)
  · have hd' : (border && decide (f (b + 1) < f b)) = false := by
      rw [← Bool.not_eq_true]; simpa using hd
    by_cases hf : border = true ∧ f b = f (b + 1)
    · rw [show scanFirst border (some (f b)) (some (f (b + 1))) b = ⟨true, 1, []⟩ by
        simp [scanFirst, ltv, eqv, hf.1, ← hf.2]]
      refine ⟨hnone hd, List.Pairwise.nil, ?_, ?_⟩
      · rw [hb1]; intro h1; exact absurd hf.2 h1
      · intro _
        refine ⟨b, le_refl _, by omega, ?_, fun h => absurd h (lt_irrefl _), ?_, ?_⟩
        · intro k hk1 hk2
          rcases Nat.lt_or_eq_of_le hk2 with h2 | h2
          · rw [show k = b by omega]
          · rw [h2]; exact hf.2.symm
        · intro _; exact ⟨rfl, by simp⟩
        · intro h; exact absurd (Or.inl ⟨rfl, hf.1⟩) h
    · have hf' : (border && decide (f b = f (b + 1))) = false := by
        rw [← Bool.not_eq_true]; simpa using hf
      rw [show scanFirst border (some (f b)) (some (f (b + 1))) b = ⟨false, 0, []⟩ by
        simp only [scanFirst, ltv, eqv, hd', hf']; simp]
      refine ⟨hnone hd, List.Pairwise.nil, fun _ => ⟨rfl, rfl⟩, ?_⟩
      rw [hb1]
      intro h1
      refine ⟨b, le_refl _, by omega, ?_, fun h => absurd h (lt_irrefl _), ?_, fun _ => rfl⟩
      · intro k hk1 hk2
        rcases Nat.lt_or_eq_of_le hk2 with h2 | h2
        · rw [show k = b by omega]
        · rw [h2]; exact h1.symm
      · rintro (⟨-, h2⟩ | ⟨h2, -⟩)
        · exact absurd ⟨h2, h1⟩ hf
        · omega

theorem scanLast_spec {border : Bool} {f : Nat → α} {b e : Nat} {s : Scan} (hbe : b + 1 < e)
    (hns : ∀ u v, ¬ Shelf border f b e u v) (h : ScanInv border f b e e s) :
    ∃ l, scanLast border (some (f (e - 1))) (some (f e)) e s = .ok l ∧ l.Pairwise (· < ·) ∧
      ∀ k, k ∈ l ↔ ∃ u v, HighPlateau border f b e u v ∧ k = mid u v := by
  have fin : ∀ l : List Nat, (∀ k, k ∈ l ↔ ∃ u v, HighPlateau border f b e u v ∧ v < e + 1 ∧ k = mid u v) →
      ∀ k, k ∈ l ↔ ∃ u v, HighPlateau border f b e u v ∧ k = mid u v := by
    intro l hl k
    rw [hl]
    constructor
    · rintro ⟨u, v, h1, -, h2⟩; exact ⟨u, v, h1, h2⟩
    · rintro ⟨u, v, h1, h2⟩; exact ⟨u, v, h1, by have := h1.le'; omega, h2⟩
  by_cases hb : border = true
  · rcases lt_trichotomy (f (e - 1)) (f e) with hab | hab | hab
    · obtain ⟨hpl, hcnt⟩ := h.nflat (ne_of_lt hab)
      have hp : HighPlateau border f b e e e :=
        ⟨by omega, le_refl _, le_refl _, fun k h1 h2 => by rw [show k = e by omega],
          Or.inr ⟨by omega, hab⟩, Or.inl ⟨rfl, hb⟩⟩
      obtain ⟨h1, h2⟩ := push_plateau h.mem h.sorted hp
      have hmid : mid e e = e := by unfold mid; omega
      rw [hmid] at h1 h2
      exact ⟨s.peaks ++ [e], by simp [scanLast, ltv, hb, not_lt.2 hab.le, hpl, hcnt], h2, fin _ h1⟩
    · obtain ⟨u, hu1, hu2, hu3, hu4, hu5, hu6⟩ := h.flat hab
      by_cases hr : (u = b ∧ border = true) ∨ (b < u ∧ f (u - 1) < f u)
      · obtain ⟨hpl, hcnt⟩ := hu5 hr
        have hp : HighPlateau border f b e u e :=
          ⟨hu1, by omega, by omega, hu3, hr, Or.inl ⟨rfl, hb⟩⟩
        obtain ⟨h1, h2⟩ := push_plateau h.mem h.sorted hp
        refine ⟨_, ?_, h2, fin _ h1⟩
        have : ¬ (e - u + 1) / 2 > e := by omega
        simp [scanLast, ltv, hb, hab, hpl, hcnt, mid, this]
      · exfalso
        rw [not_or] at hr
        refine hns u e ⟨hu1, hu2, by omega, hu3, hu4, ⟨?_, ?_⟩, Or.inl ⟨rfl, hb⟩⟩
        · intro h1
          have := hr.1
          rw [not_and] at this
          simpa using this h1
        · intro h1 h2; exact hr.2 ⟨h1, h2⟩
    · refine ⟨_, by simp [scanLast, ltv, hb, hab], h.sorted, fin _ (keep_plateau h.mem ?_)⟩
      intro u hp
      rcases Nat.lt_or_eq_of_le hp.le with h1 | h1
      · have h2 := hp.const (e - 1) (by omega) (by omega)
        have h3 := hp.const e (by omega) (by omega)
        rw [h2, h3] at hab; exact lt_irrefl _ hab
      · subst h1
        rcases hp.left with ⟨h2, -⟩ | ⟨-, h2⟩
        · omega
        · exact absurd h2 (not_lt.2 hab.le)
  · refine ⟨_, by simp [scanLast, hb], h.sorted, fin _ (keep_plateau h.mem ?_)⟩
    intro u hp
    rcases hp.right with ⟨-, h1⟩ | ⟨h1, -⟩
    · exact hb h1
    · omega

theorem trimNaN_reads {f : Nat → α} {b e : Nat} {y : List (Option α)} (hy : Reads y f b e) (hbe : b ≤ e) :
    trimNaN y b e = if e - b < 2 then .throw .INTERNAL_ERROR else .ok (b, e) := by
  have h1 : skipFwd y b (e - b) = .ok b := by
    cases h : e - b with
    | zero => rfl
    | succ n => unfold skipFwd; rw [hy b (le_refl _) hbe]
  have h2 : skipBwd y e (e - b) = .ok e := by
    cases h : e - b with
    | zero => rfl
    | succ n => unfold skipBwd; rw [hy e hbe (le_refl _)]
  unfold trimNaN
  simp only [h1, h2, Res.bind_ok, Res.pure_eq]
  by_cases h : e - b < 2
  · rw [if_pos (by omega), if_pos h]
  · rw [if_neg (by omega), if_neg h]

/-- The peak scan reports exactly the middles of the high plateaus, in increasing order, when there is no shelf. -/
theorem findAllPeaks_spec {border : Bool} {f : Nat → α} {b e : Nat} {y : List (Option α)}
    (hy : Reads y f b e) (hbe : b + 1 < e) (hns : ∀ u v, ¬ Shelf border f b e u v) :
    ∃ l, findAllPeaks border y b e = .ok l ∧ l.Pairwise (· < ·) ∧
      ∀ k, k ∈ l ↔ ∃ u v, HighPlateau border f b e u v ∧ k = mid u v := by
  obtain ⟨s, h1, h2⟩ := scanLoop_inv hy hns (e - (b + 1)) (b + 1) _ (by omega) (by omega) (scanFirst_inv hbe)
  obtain ⟨l, h3, h4⟩ := scanLast_spec hbe hns h2
  refine ⟨l, ?_, h4⟩
  unfold findAllPeaks
  rw [trimNaN_reads hy (by omega), if_neg (by omega)]
  simp only [Res.bind_ok]
  rw [Res.at_eq_ok.2 (hy b (by omega) (by omega)), Res.at_eq_ok.2 (hy (b + 1) (by omega) (by omega)),
    Res.at_eq_ok.2 (hy (e - 1) (by omega) (by omega)), Res.at_eq_ok.2 (hy e (by omega) (by omega))]
  simp only [Res.bind_ok, h1, h3]

/-! ## All inputs: indices stay in the search range -/

theorem scanStep_range {a b' c : Option α} {b i : Nat} {s : Scan} (hbi : b < i) (hc : s.cnt ≤ i - b)
    (hp : ∀ k ∈ s.peaks, b ≤ k ∧ k ≤ i) :
    ∃ s', scanStep a b' c i s = .ok s' ∧ s'.cnt ≤ i + 1 - b ∧ ∀ k ∈ s'.peaks, b ≤ k ∧ k ≤ i + 1 := by
  have hp' : ∀ k ∈ s.peaks, b ≤ k ∧ k ≤ i + 1 := fun k hk => ⟨(hp k hk).1, by have := (hp k hk).2; omega⟩
  unfold scanStep
  split_ifs
  · refine ⟨_, rfl, by simp only; omega, ?_⟩
    intro k hk
    rw [List.mem_append, List.mem_singleton] at hk
    rcases hk with hk | rfl
    · exact hp' k hk
    · omega
  · exact ⟨_, rfl, by simp only; omega, hp'⟩
  · exact ⟨_, rfl, by omega, hp'⟩
  · omega
  · refine ⟨_, rfl, by simp, ?_⟩
    intro k hk
    rw [List.mem_append, List.mem_singleton] at hk
    rcases hk with hk | rfl
    · exact hp' k hk
    · omega
  · exact ⟨_, rfl, by simp, hp'⟩
  · exact ⟨_, rfl, by simp only; omega, hp'⟩

theorem scanLoop_range {b e : Nat} {y : List (Option α)} (he : e < y.length) (n : Nat) :
    ∀ (i : Nat) (s : Scan), b < i → i + n = e → s.cnt ≤ i - b → (∀ k ∈ s.peaks, b ≤ k ∧ k ≤ i) →
    ∃ s', scanLoop y i s n = .ok s' ∧ s'.cnt ≤ e - b ∧ ∀ k ∈ s'.peaks, b ≤ k ∧ k ≤ e := by
  induction n with
  | zero => intro i s hbi hie h hp; exact ⟨s, rfl, by omega, by rw [← hie]; exact hp⟩
  | succ n ih =>
    intro i s hbi hie h hp
    obtain ⟨s', h1, h2, h3⟩ := scanStep_range (a := y[i - 1]'(by omega)) (b' := y[i]'(by omega))
      (c := y[i + 1]'(by omega)) hbi h hp
    obtain ⟨s'', h4, h5⟩ := ih (i + 1) s' (by omega) (by omega) h2 h3
    refine ⟨s'', ?_, h5⟩
    unfold scanLoop
    rw [List.getElem?_eq_getElem (show i - 1 < y.length by omega),
      List.getElem?_eq_getElem (show i < y.length by omega),
      List.getElem?_eq_getElem (show i + 1 < y.length by omega)]
    simp only [h1, h4]

theorem skipFwd_range (y : List (Option α)) (n : Nat) : ∀ b, b + n < y.length →
    ∃ b', skipFwd y b n = .ok b' ∧ b ≤ b' ∧ b' ≤ b + n := by
  induction n with
  | zero => intro b _; exact ⟨b, rfl, by omega, by omega⟩
  | succ n ih =>
    intro b hb
    unfold skipFwd
    rw [List.getElem?_eq_getElem (show b < y.length by omega)]
    cases y[b] with
    | some v => exact ⟨b, rfl, by omega, by omega⟩
    | none =>
      obtain ⟨b', h1, h2⟩ := ih (b + 1) (by omega)
      exact ⟨b', h1, by omega, by omega⟩

theorem skipBwd_range (y : List (Option α)) (n : Nat) : ∀ e, e < y.length → n ≤ e →
    ∃ e', skipBwd y e n = .ok e' ∧ e' ≤ e ∧ e - n ≤ e' := by
  induction n with
  | zero => intro e _ _; exact ⟨e, rfl, by omega, by omega⟩
  | succ n ih =>
    intro e he hn
    unfold skipBwd
    rw [List.getElem?_eq_getElem (show e < y.length by omega)]
    cases y[e] with
    | some v => exact ⟨e, rfl, by omega, by omega⟩
    | none =>
      obtain ⟨e', h1, h2⟩ := ih (e - 1) (by omega) (by omega)
      exact ⟨e', h1, by omega, by omega⟩

theorem trimNaN_range (y : List (Option α)) {b e : Nat} (hbe : b ≤ e) (he : e < y.length) :
    trimNaN y b e = .throw .INTERNAL_ERROR ∨
    ∃ b' e', trimNaN y b e = .ok (b', e') ∧ b ≤ b' ∧ b' + 2 ≤ e' ∧ e' ≤ e := by
  obtain ⟨b', h1, h2, h3⟩ := skipFwd_range y (e - b) b (by omega)
  obtain ⟨e', h4, h5, h6⟩ := skipBwd_range y (e - b') e (by omega) (by omega)
  unfold trimNaN
  simp only [h1, h4, Res.bind_ok, Res.pure_eq]
  by_cases h : (e' : Int) - b' < 2
  · rw [if_pos h]; exact Or.inl rfl
  · rw [if_neg h]; exact Or.inr ⟨b', e', rfl, h2, by omega, h5⟩

theorem findAllPeaks_range {border : Bool} {b e : Nat} {y : List (Option α)} (hbe : b ≤ e) (he : e < y.length) :
    findAllPeaks border y b e = .throw .INTERNAL_ERROR ∨
    ∃ l, findAllPeaks border y b e = .ok l ∧ ∀ k ∈ l, b ≤ k ∧ k ≤ e := by
  unfold findAllPeaks
  rcases trimNaN_range y hbe he with h | ⟨b', e', h, h1, h2, h3⟩
  · rw [h]; exact Or.inl rfl
  · right
    rw [h]
    simp only [Res.bind_ok]
    rw [Res.at_of_lt (show b' < y.length by omega), Res.at_of_lt (show b' + 1 < y.length by omega),
      Res.at_of_lt (show e' - 1 < y.length by omega), Res.at_of_lt (show e' < y.length by omega)]
    simp only [Res.bind_ok]
    have hfirst : ∀ y0 y1 : Option α, (scanFirst border y0 y1 b').cnt ≤ 1 ∧
        ∀ k ∈ (scanFirst border y0 y1 b').peaks, k = b' := by
      intro y0 y1
      unfold scanFirst
      split_ifs <;> simp
    obtain ⟨hf1, hf2⟩ := hfirst y[b'] y[b' + 1]
    obtain ⟨s, h4, h5, h6⟩ := scanLoop_range (b := b') (e := e') (y := y) (by omega) (e' - (b' + 1)) (b' + 1)
      (scanFirst border y[b'] y[b' + 1] b') (by omega) (by omega) (by omega)
      (fun k hk => by rw [hf2 k hk]; omega)
    rw [h4]
    simp only [Res.bind_ok]
    unfold scanLast
    have hp : ∀ k ∈ s.peaks, b ≤ k ∧ k ≤ e := fun k hk => by have := h6 k hk; omega
    have hcnt : s.cnt + (if s.plank then 1 else 0) ≤ e' - b' + 1 := by split_ifs <;> omega
    generalize s.cnt + (if s.plank then 1 else 0) = cnt at hcnt
    simp only
    split_ifs with h7 h8 h9
    · exact ⟨_, rfl, hp⟩
    · exact ⟨_, rfl, hp⟩
    · omega
    · refine ⟨_, rfl, ?_⟩
      intro k hk
      rw [List.mem_append, List.mem_singleton] at hk
      rcases hk with hk | rfl
      · exact hp k hk
      · omega

end Extremum
end Amazed
