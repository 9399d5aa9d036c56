import Verif.Model.Flag

/-! # C11: warning flags -/

namespace Amazed

/-! ## Specification: the warnings raised since the last reset of a history -/

/-- Warnings of a history after its last reset, in order. -/
def sinceReset : List FlagOp → List (WarningCode × String)
  | [] => []
  | .reset :: ops => sinceReset ops
  | .warning c m :: ops =>
    if ops.any (fun o => match o with | .reset => true | _ => false) then sinceReset ops
    else (c, m) :: sinceReset ops

theorem WarningCode.toNat_lt (c : WarningCode) : c.toNat < 18 := by cases c <;> decide

theorem WarningCode.toNat_inj {c d : WarningCode} (h : c.toNat = d.toNat) : c = d := by
  revert h; cases c <;> cases d <;> simp [WarningCode.toNat, WarningCode.ctorIdx]

theorem sinceReset_append_warning (ops : List FlagOp) (c : WarningCode) (m : String) :
    sinceReset (ops ++ [.warning c m]) = sinceReset ops ++ [(c, m)] := by
  induction ops with
  | nil => simp [sinceReset]
  | cons o ops ih =>
    cases o with
    | reset => simpa [sinceReset] using ih
    | warning d n =>
      simp only [List.cons_append, sinceReset, List.any_append, List.any_cons, List.any_nil,
        Bool.or_false, ih]
      split <;> simp

theorem sinceReset_append_reset (ops : List FlagOp) : sinceReset (ops ++ [.reset]) = [] := by
  induction ops with
  | nil => simp [sinceReset]
  | cons o ops ih =>
    cases o with
    | reset => simpa [sinceReset] using ih
    | warning d n => simp [sinceReset, List.any_append, ih]

theorem flag_run_append (ops : List FlagOp) (o : FlagOp) :
    FlagState.run (ops ++ [o]) = (FlagState.run ops).step o := by
  simp [FlagState.run, List.foldl_append]

theorem flag_bit_step (f : BitVec 32) (c : WarningCode) (i : Nat) :
    (f ||| (1#32 <<< c.toNat)).getLsbD i = (f.getLsbD i || decide (i = c.toNat)) := by
  have := c.toNat_lt
  by_cases h : i = c.toNat
  · subst h
    simp only [BitVec.getLsbD_or, BitVec.getLsbD_shiftLeft, BitVec.getLsbD_one]
    simp; right; omega
  · simp only [BitVec.getLsbD_or, BitVec.getLsbD_shiftLeft, BitVec.getLsbD_one]
    simp [h]; intro _ _; omega

theorem list_reverse_ind {β : Type _} {P : List β → Prop} (h0 : P [])
    (h1 : ∀ l a, P l → P (l ++ [a])) (l : List β) : P l := by
  have : ∀ r : List β, P r.reverse := by
    intro r
    induction r with
    | nil => exact h0
    | cons a r ih => rw [List.reverse_cons]; exact h1 _ _ ih
  simpa using this l.reverse

/-- C11. After any history of warnings and resets, the message list is exactly the warnings since the
last reset, in order; bit `i` of the mask is set iff `i` is the number of a code raised since the last
reset. -/
theorem C11_flags (ops : List FlagOp) :
    (FlagState.run ops).getListMessages = sinceReset ops ∧
    ∀ i, (FlagState.run ops).getBitMask.getLsbD i = true ↔
      ∃ c m, (c, m) ∈ sinceReset ops ∧ c.toNat = i := by
  induction ops using list_reverse_ind with
  | h0 => simp [FlagState.run, FlagState.getListMessages, FlagState.getBitMask, sinceReset]
  | h1 ops o ih =>
    rw [flag_run_append]
    cases o with
    | reset =>
      rw [sinceReset_append_reset]
      simp [FlagState.step, FlagState.getListMessages, FlagState.getBitMask]
    | warning c m =>
      rw [sinceReset_append_warning]
      obtain ⟨ih1, ih2⟩ := ih
      constructor
      · simpa [FlagState.step, FlagState.getListMessages] using ih1
      · intro i
        simp only [FlagState.step, FlagState.getBitMask, flag_bit_step, Bool.or_eq_true,
          decide_eq_true_eq]
        have := ih2 i
        simp only [FlagState.getBitMask] at this
        rw [this]
        constructor
        · rintro (⟨d, n, hd, rfl⟩ | rfl)
          · exact ⟨d, n, by simp [hd], rfl⟩
          · exact ⟨c, m, by simp, rfl⟩
        · rintro ⟨d, n, hd, rfl⟩
          rcases List.mem_append.1 hd with h | h
          · exact .inl ⟨d, n, h, rfl⟩
          · simp at h; exact .inr (by rw [h.1])

/-- C11, per code: distinct codes use distinct bits, so the mask tells which codes were raised. -/
theorem C11_flag_of_code (ops : List FlagOp) (c : WarningCode) :
    (FlagState.run ops).getBitMask.getLsbD c.toNat = true ↔ ∃ m, (c, m) ∈ sinceReset ops := by
  rw [(C11_flags ops).2]
  constructor
  · rintro ⟨d, m, h, he⟩
    exact ⟨m, by rwa [WarningCode.toNat_inj he] at h⟩
  · rintro ⟨m, h⟩; exact ⟨c, m, h, rfl⟩

example : let ops : List FlagOp := [.warning .LBFGSPP_ERROR "a", .reset,
      .warning .PDF_PEAK_NOT_FOUND "b", .warning .UNUSED_PARAMETER "c"]
    (FlagState.run ops).getBitMask = 0x8002#32 ∧
    sinceReset ops = [(.PDF_PEAK_NOT_FOUND, "b"), (.UNUSED_PARAMETER, "c")] := by decide

end Amazed
