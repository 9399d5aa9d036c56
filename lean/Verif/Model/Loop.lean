import Verif.Basic

/-! # Loops of the modelled code

`for (i = k; i < k + n; i++) s = f(i, s)` with early exit on exceptions and undefined behaviour. -/

namespace Amazed
namespace Res

/-- `for` loop over the indices `k, …, k + n - 1`. -/
def foldN {σ : Type} (f : Nat → σ → Res σ) (k : Nat) : Nat → σ → Res σ
  | 0, s => .ok s
  | n + 1, s => f k s >>= fun s' => foldN f (k + 1) n s'

/-- Loop filling a vector of `n` elements, element `i` being computed by `g i`. -/
def tab {α : Type} (g : Nat → Res α) : Nat → Res (List α)
  | 0 => .ok []
  | n + 1 => tab g n >>= fun l => g n >>= fun a => .ok (l ++ [a])

/-- Loop invariant rule. -/
theorem foldN_inv {σ : Type} {f : Nat → σ → Res σ} (P : Nat → σ → Prop) (n : Nat) :
    ∀ (k : Nat) (s : σ), P k s →
    (∀ i s, k ≤ i → i < k + n → P i s → ∃ s', f i s = .ok s' ∧ P (i + 1) s') →
    ∃ s', foldN f k n s = .ok s' ∧ P (k + n) s' := by
  induction n with
  | zero => intro k s h _; exact ⟨s, rfl, h⟩
  | succ n ih =>
    intro k s h hstep
    obtain ⟨s', h1, h2⟩ := hstep k s (Nat.le_refl _) (by omega) h
    obtain ⟨s'', h3, h4⟩ := ih (k + 1) s' h2 (fun i s hi1 hi2 hp => hstep i s (by omega) (by omega) hp)
    refine ⟨s'', ?_, by rw [show k + (n + 1) = k + 1 + n by omega]; exact h4⟩
    unfold foldN
    rw [h1, bind_ok, h3]

/-- Loop invariant rule for loops that may stop with an exception. -/
theorem foldN_inv_throw {σ : Type} {f : Nat → σ → Res σ} (P : Nat → σ → Prop) (Q : Err → Prop) (n : Nat) :
    ∀ (k : Nat) (s : σ), P k s →
    (∀ i s, k ≤ i → i < k + n → P i s → (∃ s', f i s = .ok s' ∧ P (i + 1) s') ∨ (∃ e, f i s = .throw e ∧ Q e)) →
    (∃ s', foldN f k n s = .ok s' ∧ P (k + n) s') ∨ (∃ e, foldN f k n s = .throw e ∧ Q e) := by
  induction n with
  | zero => intro k s h _; exact Or.inl ⟨s, rfl, h⟩
  | succ n ih =>
    intro k s h hstep
    rcases hstep k s (Nat.le_refl _) (by omega) h with ⟨s', h1, h2⟩ | ⟨e, h1, h2⟩
    · rcases ih (k + 1) s' h2 (fun i s hi1 hi2 hp => hstep i s (by omega) (by omega) hp) with
        ⟨s'', h3, h4⟩ | ⟨e, h3, h4⟩
      · refine Or.inl ⟨s'', ?_, by rw [show k + (n + 1) = k + 1 + n by omega]; exact h4⟩
        unfold foldN
        rw [h1, bind_ok, h3]
      · refine Or.inr ⟨e, ?_, h4⟩
        unfold foldN
        rw [h1, bind_ok, h3]
    · refine Or.inr ⟨e, ?_, h2⟩
      unfold foldN
      rw [h1, bind_throw]

theorem tab_ok {α : Type} {g : Nat → Res α} {h : Nat → α} (n : Nat) (hg : ∀ i, i < n → g i = .ok (h i)) :
    tab g n = .ok ((List.range n).map h) := by
  induction n with
  | zero => rfl
  | succ n ih =>
    unfold tab
    rw [ih (fun i hi => hg i (by omega)), bind_ok, hg n (by omega), bind_ok, List.range_succ, List.map_append]
    rfl

theorem tab_length {α : Type} {g : Nat → Res α} (n : Nat) : ∀ {l : List α}, tab g n = .ok l → l.length = n := by
  induction n with
  | zero => intro l h; unfold tab at h; cases h; rfl
  | succ n ih =>
    intro l h
    unfold tab at h
    obtain ⟨l', h1, h2⟩ := bind_eq_ok.1 h
    obtain ⟨a, h3, h4⟩ := bind_eq_ok.1 h2
    cases h4
    simp [ih h1]

/-- What a successful table contains. -/
theorem tab_get {α : Type} {g : Nat → Res α} (n : Nat) : ∀ {l : List α}, tab g n = .ok l →
    ∀ i, (hi : i < n) → ∃ a, l[i]? = some a ∧ g i = .ok a := by
  induction n with
  | zero => intro l _ i hi; omega
  | succ n ih =>
    intro l h i hi
    unfold tab at h
    obtain ⟨l', h1, h2⟩ := bind_eq_ok.1 h
    obtain ⟨a, h3, h4⟩ := bind_eq_ok.1 h2
    cases h4
    have hl := tab_length n h1
    rcases Nat.lt_or_eq_of_le (Nat.le_of_lt_succ hi) with h5 | h5
    · obtain ⟨b, h6, h7⟩ := ih h1 i h5
      exact ⟨b, by rw [List.getElem?_append_left (by omega)]; exact h6, h7⟩
    · subst h5
      exact ⟨a, by rw [List.getElem?_append_right (by omega)]; simp [hl], h3⟩

/-- A table whose element `k` is the first one not computed, by undefined behaviour. -/
theorem tab_ub {α : Type} {g : Nat → Res α} (n k : Nat) (hk : k < n)
    (hlt : ∀ i, i < k → ∃ a, g i = .ok a) (hub : g k = .ub) : tab g n = .ub := by
  induction n with
  | zero => omega
  | succ n ih =>
    unfold tab
    rcases Nat.lt_or_eq_of_le (Nat.le_of_lt_succ hk) with h | h
    · rw [ih h]; rfl
    · subst h
      have : ∀ m, m ≤ k → ∃ l, tab g m = .ok l := by
        intro m
        induction m with
        | zero => intro _; exact ⟨[], rfl⟩
        | succ m ih2 =>
          intro hm
          obtain ⟨l, hl⟩ := ih2 (by omega)
          obtain ⟨a, ha⟩ := hlt m (by omega)
          exact ⟨l ++ [a], by unfold tab; rw [hl, bind_ok, ha, bind_ok]⟩
      obtain ⟨l, hl⟩ := this k (Nat.le_refl _)
      rw [hl, bind_ok, hub]; rfl

end Res
end Amazed
