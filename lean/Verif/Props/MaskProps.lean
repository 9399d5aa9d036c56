import Verif.Model.Mask
import Mathlib.Tactic.Linarith
import Mathlib.Algebra.Order.Field.Basic
import Mathlib.Tactic.Common
import Mathlib.Algebra.BigOperators.Group.List.Basic

/-! # C10: masks -/

namespace Amazed
namespace Mask

/-! ## Specification: a mask keeps sample `i` when its weight is not zero. -/

/-- Every weight is 0 or 1. -/
def Binary (m : List Nat) : Prop := ∀ w ∈ m, w = 0 ∨ w = 1

/-- Sample `i` is kept by the mask. -/
def Keeps (m : List Nat) (i : Nat) : Prop := ∃ w, m[i]? = some w ∧ w ≠ 0

instance (m : List Nat) (i : Nat) : Decidable (Keeps m i) :=
  match h : m[i]? with
  | none => .isFalse (by unfold Keeps; simp [h])
  | some w => if hw : w = 0 then .isFalse (by unfold Keeps; simp [h, hw]) else
      .isTrue ⟨w, h, hw⟩

/-- Number of samples kept. -/
def keptCount (m : List Nat) : Nat := (List.range m.length).countP (fun i => decide (Keeps m i))

/-- Number of samples kept by both. -/
def keptByBoth (m o : List Nat) : Nat :=
  (List.range m.length).countP (fun i => decide (Keeps m i) && decide (Keeps o i))

/-! ## Lemmas -/

theorem foldl_add_eq_sum (m : List Nat) (a : Nat) : m.foldl (· + ·) a = a + m.sum := by
  induction m generalizing a with
  | nil => simp
  | cons x m ih => simp only [List.foldl_cons, List.sum_cons]; rw [ih]; omega

theorem keeps_cons_succ (a : Nat) (m : List Nat) (i : Nat) : Keeps (a :: m) (i + 1) ↔ Keeps m i := by
  simp [Keeps]

theorem keeps_cons_zero (a : Nat) (m : List Nat) : Keeps (a :: m) 0 ↔ a ≠ 0 := by
  simp [Keeps]

theorem keptCount_cons (a : Nat) (m : List Nat) :
    keptCount (a :: m) = (if a ≠ 0 then 1 else 0) + keptCount m := by
  unfold keptCount
  rw [List.length_cons, List.range_succ_eq_map, List.countP_cons, List.countP_map]
  have h2 : ((fun i => decide (Keeps (a :: m) i)) ∘ Nat.succ) = fun i => decide (Keeps m i) := by
    funext i; simp [keeps_cons_succ]
  rw [h2]; simp [keeps_cons_zero]; omega

theorem keptByBoth_cons (a b : Nat) (m o : List Nat) :
    keptByBoth (a :: m) (b :: o) = (if a ≠ 0 ∧ b ≠ 0 then 1 else 0) + keptByBoth m o := by
  unfold keptByBoth
  rw [List.length_cons, List.range_succ_eq_map, List.countP_cons, List.countP_map]
  have h2 : ((fun i => decide (Keeps (a :: m) i) && decide (Keeps (b :: o) i)) ∘ Nat.succ) =
      fun i => decide (Keeps m i) && decide (Keeps o i) := by
    funext i; simp [keeps_cons_succ]
  rw [h2]; simp [keeps_cons_zero]; omega

theorem Binary.tail {a : Nat} {m : List Nat} (h : Binary (a :: m)) : Binary m :=
  fun w hw => h w (by simp [hw])

theorem rates_eq (m o : List Nat) (s t : Nat) (hl : o.length = m.length) :
    rates m o (s, t) = (s + m.sum, t + (List.zipWith (fun a b => b &&& a) m o).sum) := by
  induction m generalizing o s t with
  | nil => cases o <;> simp_all [rates]
  | cons a m ih =>
    cases o with
    | nil => simp at hl
    | cons b o =>
      simp only [rates, List.zipWith_cons_cons, List.sum_cons]
      rw [ih o _ _ (by simpa using hl)]
      simp only [Prod.mk.injEq]; omega

theorem sum_binary (m : List Nat) (h : Binary m) : m.sum = keptCount m := by
  induction m with
  | nil => rfl
  | cons a m ih =>
    rw [keptCount_cons, List.sum_cons, ih h.tail]
    rcases h a (by simp) with rfl | rfl <;> simp

theorem sum_and_binary (m o : List Nat) (hl : o.length = m.length) (hm : Binary m) (ho : Binary o) :
    (List.zipWith (fun a b => b &&& a) m o).sum = keptByBoth m o := by
  induction m generalizing o with
  | nil => cases o <;> simp_all [keptByBoth]
  | cons a m ih =>
    cases o with
    | nil => simp at hl
    | cons b o =>
      rw [List.zipWith_cons_cons, List.sum_cons, keptByBoth_cons,
        ih o (by simpa using hl) hm.tail ho.tail]
      rcases hm a (by simp) with rfl | rfl <;> rcases ho b (by simp) with rfl | rfl <;> simp

theorem sum_and_le (m o : List Nat) : (List.zipWith (fun a b => b &&& a) m o).sum ≤ m.sum := by
  induction m generalizing o with
  | nil => simp
  | cons a m ih =>
    cases o with
    | nil => simp
    | cons b o =>
      rw [List.zipWith_cons_cons, List.sum_cons, List.sum_cons]
      have := ih o
      have h2 : b &&& a ≤ a := Nat.and_le_right
      omega

end Mask

open Mask

/-- C10. For 0/1 masks of the same size, `IntersectAndComputeOverlapFraction` is the number of samples
kept by both over the number kept by the mask itself (0 when it keeps none). -/
theorem C10_overlap_fraction (m o : List Nat) (hl : o.length = m.length) (hm : Binary m)
    (ho : Binary o) :
    intersectOverlapFraction m o =
      if keptCount m = 0 then 0 else (keptByBoth m o : ℚ) / (keptCount m : ℚ) := by
  unfold intersectOverlapFraction
  rw [if_neg (by simpa using hl), rates_eq m o 0 0 hl]
  simp only [zero_add]
  rw [sum_binary m hm, sum_and_binary m o hl hm ho]

/-- C10. For any weights (not only 0/1) of the same size the fraction lies in `[0,1]`; masks of
different sizes give `-1`. -/
theorem C10_overlap_bounds (m o : List Nat) :
    (o.length = m.length → 0 ≤ intersectOverlapFraction m o ∧ intersectOverlapFraction m o ≤ 1) ∧
    (o.length ≠ m.length → intersectOverlapFraction m o = -1) := by
  constructor
  · intro hl
    unfold intersectOverlapFraction
    rw [if_neg (by simpa using hl), rates_eq m o 0 0 hl]
    simp only [zero_add]
    split
    · constructor <;> norm_num
    · rename_i h
      have hpos : (0 : ℚ) < (m.sum : ℚ) := by exact_mod_cast Nat.pos_of_ne_zero h
      have hle : (((List.zipWith (fun a b => b &&& a) m o).sum : ℕ) : ℚ) ≤ (m.sum : ℚ) := by
        exact_mod_cast sum_and_le m o
      constructor
      · exact div_nonneg (by positivity) hpos.le
      · exact by rw [div_le_iff₀ hpos]; linarith
  · intro hl
    unfold intersectOverlapFraction; rw [if_pos hl]

/-- C10. `operator&=` and `IntersectWith` keep the size; on equal sizes 0/1 masks stay 0/1 and a sample
is kept iff both keep it; on different sizes nothing changes (and `IntersectWith` returns false). -/
theorem C10_intersect (m o : List Nat) :
    (m.length ≠ o.length → andAssign m o = m ∧ intersectWith m o = (false, m)) ∧
    (m.length = o.length →
      intersectWith m o = (true, andAssign m o) ∧ (andAssign m o).length = m.length ∧
      (Binary m → Binary o → Binary (andAssign m o) ∧
        ∀ i, Keeps (andAssign m o) i ↔ (Keeps m i ∧ Keeps o i))) := by
  constructor
  · intro h; simp [andAssign, intersectWith, h]
  · intro h
    have hand : andAssign m o = List.zipWith (fun a b => b &&& a) m o := by
      simp [andAssign, h]
    have hcomm : List.zipWith (fun a b => a &&& b) m o = List.zipWith (fun a b => b &&& a) m o := by
      congr 1; funext a b; exact Nat.and_comm a b
    refine ⟨by simp [intersectWith, h, hand, hcomm], by simp [hand, h], ?_⟩
    intro hm ho
    rw [hand]
    constructor
    · intro w hw
      obtain ⟨i, hi, rfl⟩ := List.getElem_of_mem hw
      simp only [List.getElem_zipWith]
      simp only [List.length_zipWith] at hi
      rcases hm m[i] (List.getElem_mem _) with h1 | h1 <;>
        rcases ho o[i] (List.getElem_mem _) with h2 | h2 <;> simp [h1, h2]
    · intro i
      unfold Keeps
      simp only [List.getElem?_zipWith]
      by_cases hi : i < m.length
      · have hi2 : i < o.length := by omega
        simp only [List.getElem?_eq_getElem hi, List.getElem?_eq_getElem hi2, Option.some.injEq,
          exists_eq_left']
        rcases hm m[i] (List.getElem_mem _) with h1 | h1 <;>
          rcases ho o[i] (List.getElem_mem _) with h2 | h2 <;> simp [h1, h2]
      · simp [List.getElem?_eq_none (by omega : m.length ≤ i)]

/-- C10. The number of unmasked samples of a 0/1 mask is the number of samples kept, and masked plus
unmasked is the size. -/
theorem C10_counts (m : List Nat) (hm : Binary m) :
    unmaskedCount m = keptCount m ∧ maskedCount m + unmaskedCount m = m.length ∧
    0 ≤ maskedCount m := by
  have h1 : unmaskedCount m = keptCount m := by
    unfold unmaskedCount; rw [foldl_add_eq_sum, zero_add, sum_binary m hm]
  have h2 : keptCount m ≤ m.length := by
    unfold keptCount
    have := List.countP_le_length (p := fun i => decide (Keeps m i)) (l := List.range m.length)
    simpa using this
  refine ⟨h1, by simp [maskedCount], ?_⟩
  unfold maskedCount; omega

/-- C10 does not hold for the other function, `CompouteOverlapFraction`: it never intersects the two
masks, so it can exceed 1 and be positive for masks without common sample. -/
theorem C10_computeOverlapFraction_not_overlap :
    (∃ m o : List Nat, o.length = m.length ∧ Binary m ∧ Binary o ∧ overlapFraction m o = 2) ∧
    (∃ m o : List Nat, o.length = m.length ∧ Binary m ∧ Binary o ∧ keptByBoth m o = 0 ∧
      overlapFraction m o = 1) :=
  ⟨⟨[1, 0], [1, 1], rfl, by simp [Binary], by simp [Binary], by norm_num [overlapFraction]⟩,
   ⟨[1, 0], [0, 1], rfl, by simp [Binary], by simp [Binary], by decide, by norm_num [overlapFraction]⟩⟩

example : Binary [1, 1, 0, 1] ∧ Binary [1, 0, 1, 1] ∧
    intersectOverlapFraction [1, 1, 0, 1] [1, 0, 1, 1] = 2 / 3 := by
  refine ⟨by simp [Binary], by simp [Binary], by norm_num [intersectOverlapFraction, rates]⟩

end Amazed
