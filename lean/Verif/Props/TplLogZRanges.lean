import Verif.Model.TplLog
import Verif.Model.Meiksin
import Verif.Props.IndexingProps
import Mathlib.Tactic.Linarith
import Mathlib.Tactic.FieldSimp
import Mathlib.Tactic.NormNum

set_option linter.unusedSectionVars false
set_option linter.unusedVariables false

/-! # Template fitting on log-sampled grids: the ranges of redshifts (C129) -/

namespace Amazed
namespace TplLog

variable {K : Type} [Field K] [LinearOrder K] [IsStrictOrderedRing K]

/-- Ranges of indices that follow one another from `a` to `n - 1`. -/
inductive Chain (n : Nat) : Int → List (Int × Int) → Prop
  | last (a : Int) : Chain n a [(a, (n : Int) - 1)]
  | cons (a b : Int) (l : List (Int × Int)) : Chain n (b + 1) l → Chain n a ((a, b) :: l)

/-- The redshifts where the ranges are cut: the redshift from which the first wavelength of the spectrum is below 1216 at rest, and above
it the bounds of the IGM bins but the last, all strictly between the first and the last redshift. -/
def IsCut (igm : Bool) (l0 front back : K) (bins : List K) (v : K) : Prop :=
  igm = true ∧ front < v ∧ v < back ∧ (v = l0 / 1216 - 1 ∨ (v ∈ bins.dropLast ∧ l0 / 1216 - 1 < v))

theorem chain_mkRanges (n : Nat) : ∀ (l : List Int) (a : Int), Chain n a (mkRanges n a l)
  | [], a => .last a
  | m :: l, a => .cons a m _ (chain_mkRanges n l (m + 1))

/-- The index of a cut: the last redshift that is not greater. -/
theorem lowerIdx_spec {zs : List K} (hs : zs.Pairwise (· < ·)) (hne : zs ≠ []) {v : K} (h0 : ∀ f, zs[0]? = some f → f < v)
    (h1 : ∀ b, zs[zs.length - 1]? = some b → v < b) :
    ∃ i : Nat, lowerIdx zs v = .ok (i : Int) ∧ i + 1 < zs.length ∧ ∀ (k : Nat) (z : K), zs[k]? = some z → (z ≤ v ↔ k ≤ i) := by
  have hp := List.length_pos_of_ne_nil hne
  obtain ⟨c1, c2, o, c3⟩ := C08_closestLower zs v (hs.imp fun h => le_of_lt h) hne
  have hf := h0 zs[0] (List.getElem?_eq_getElem hp)
  cases o with
  | none => exact absurd (c1.1 c3 _ (List.getElem_mem hp)) (not_lt.2 hf.le)
  | some i =>
    obtain ⟨hi, q1, q2, q3⟩ := c2 i c3
    have q3 := q3 hs
    refine ⟨i, by unfold lowerIdx; rw [c3, Res.bind_ok], ?_, ?_⟩
    · by_contra hc
      have hb := h1 zs[zs.length - 1] (List.getElem?_eq_getElem (by omega))
      have := (q3 (zs.length - 1) (by omega)).2 (by omega)
      exact absurd hb (not_lt.2 this)
    · intro k z hk
      obtain ⟨hk1, rfl⟩ := List.getElem?_eq_some_iff.1 hk
      exact q3 k hk1

/-- A list of cuts in increasing order, with their indices. -/
def CutsOk (zs : List K) (cs : List K) (l : List Int) : Prop :=
  cs.Pairwise (· < ·) ∧ List.Forall₂ (fun v m => ∃ i : Nat, m = (i : Int) ∧ i + 1 < zs.length ∧
    ∀ (k : Nat) (z : K), zs[k]? = some z → (z ≤ v ↔ k ≤ i)) cs l

theorem binSplits_spec {zs : List K} (hs : zs.Pairwise (· < ·)) (hne : zs ≠ []) {front back zmin : K} (hf : zs[0]? = some front)
    (hb : zs[zs.length - 1]? = some back) : ∀ bins : List K, bins.Pairwise (· < ·) →
    ∃ l cs, binSplits zs zmin front back bins = .ok l ∧ CutsOk zs cs l ∧ ∀ v, v ∈ cs ↔ (v ∈ bins ∧ zmin < v ∧ front < v ∧ v < back)
  | [], _ => ⟨[], [], rfl, ⟨.nil, .nil⟩, by simp⟩
  | z :: bins, hp => by
    obtain ⟨l, cs, e, ⟨o1, o2⟩, o3⟩ := binSplits_spec hs hne hf hb bins (List.Pairwise.of_cons hp)
    have hlt := fun v (hv : v ∈ bins) => List.rel_of_pairwise_cons hp hv
    unfold binSplits
    by_cases h1 : z ≤ zmin ∨ z ≤ front
    · rw [if_pos h1]
      refine ⟨l, cs, e, ⟨o1, o2⟩, fun v => ?_⟩
      rw [o3, List.mem_cons]
      constructor
      · rintro ⟨a, b⟩; exact ⟨Or.inr a, b⟩
      · rintro ⟨a | a, b, c, d⟩
        · subst a; rcases h1 with h1 | h1
          · exact absurd b (not_lt.2 h1)
          · exact absurd c (not_lt.2 h1)
        · exact ⟨a, b, c, d⟩
    · rw [if_neg h1]
      push Not at h1
      by_cases h2 : back ≤ z
      · rw [if_pos h2]
        refine ⟨[], [], rfl, ⟨.nil, .nil⟩, fun v => ?_⟩
        constructor
        · intro h; cases h
        · rintro ⟨a, -, -, d⟩
          rcases List.mem_cons.1 a with a | a
          · subst a; exact absurd d (not_lt.2 h2)
          · exact absurd d (not_lt.2 (h2.trans (hlt v a).le))
      · rw [if_neg h2]
        push Not at h2
        obtain ⟨i, i1, i2, i3⟩ := lowerIdx_spec hs hne (v := z) (fun f h => by rw [hf] at h; cases h; exact h1.2)
          (fun b h => by rw [hb] at h; cases h; exact h2)
        rw [i1, Res.bind_ok, e, Res.bind_ok]
        refine ⟨_, z :: cs, rfl, ⟨List.pairwise_cons.2 ⟨fun v hv => hlt v ((o3 v).1 hv).1, o1⟩, .cons ⟨i, rfl, i2, i3⟩ o2⟩, fun v => ?_⟩
        rw [List.mem_cons, List.mem_cons, o3]
        constructor
        · rintro (rfl | ⟨a, b⟩)
          · exact ⟨Or.inl rfl, h1.1, h1.2, h2⟩
          · exact ⟨Or.inr a, b⟩
        · rintro ⟨a | a, b⟩
          · exact Or.inl a
          · exact Or.inr ⟨a, b⟩

theorem zSplits_spec {zs bins : List K} {l0 front back : K} (hs : zs.Pairwise (· < ·)) (hne : zs ≠ []) (hf : zs[0]? = some front)
    (hb : zs[zs.length - 1]? = some back) (hbins : bins.Pairwise (· < ·)) (hbne : bins ≠ []) :
    ∃ l cs, zSplits zs bins l0 front back = .ok l ∧ CutsOk zs cs l ∧ ∀ v, v ∈ cs ↔ IsCut true l0 front back bins v := by
  unfold zSplits
  by_cases h1 : igmStart l0 < back
  · obtain ⟨l, cs, e, ⟨o1, o2⟩, o3⟩ := binSplits_spec hs hne (zmin := igmStart l0) hf hb bins.dropLast
      (hbins.sublist (List.dropLast_sublist _))
    by_cases h2 : front < igmStart l0
    · obtain ⟨i, i1, i2, i3⟩ := lowerIdx_spec hs hne (v := igmStart l0) (fun f h => by rw [hf] at h; cases h; exact h2)
        (fun b h => by rw [hb] at h; cases h; exact h1)
      rw [if_pos ⟨h2, h1⟩, i1, Res.bind_ok, Res.bind_ok, if_pos h1, if_neg hbne, e, Res.bind_ok]
      refine ⟨_, igmStart l0 :: cs, rfl, ⟨List.pairwise_cons.2 ⟨fun v hv => ((o3 v).1 hv).2.1, o1⟩, .cons ⟨i, rfl, i2, i3⟩ o2⟩, fun v => ?_⟩
      rw [List.mem_cons, o3]
      unfold IsCut
      rw [show l0 / 1216 - 1 = igmStart l0 from rfl]
      constructor
      · rintro (rfl | ⟨a, b, c, d⟩)
        · exact ⟨rfl, h2, h1, Or.inl rfl⟩
        · exact ⟨rfl, c, d, Or.inr ⟨a, b⟩⟩
      · rintro ⟨-, b, c, a | ⟨a, d⟩⟩
        · exact Or.inl a
        · exact Or.inr ⟨a, d, b, c⟩
    · rw [if_neg (fun h => h2 h.1), Res.bind_ok, if_pos h1, if_neg hbne, e, Res.bind_ok]
      refine ⟨_, cs, rfl, ⟨o1, o2⟩, fun v => ?_⟩
      rw [o3]
      unfold IsCut
      rw [show l0 / 1216 - 1 = igmStart l0 from rfl]
      constructor
      · rintro ⟨a, b, c, d⟩
        exact ⟨rfl, c, d, Or.inr ⟨a, b⟩⟩
      · rintro ⟨-, b, c, a | ⟨a, d⟩⟩
        · subst a; exact absurd b h2
        · exact ⟨a, d, b, c⟩
  · rw [if_neg (fun h => h1 h.2), Res.bind_ok, if_neg h1, Res.bind_ok]
    refine ⟨_, [], rfl, ⟨.nil, .nil⟩, fun v => ?_⟩
    unfold IsCut
    rw [show l0 / 1216 - 1 = igmStart l0 from rfl]
    constructor
    · intro h; cases h
    · rintro ⟨-, b, c, a | ⟨a, d⟩⟩
      · subst a; exact absurd c h1
      · exact absurd (d.trans c) h1

/-- The ranges made from the indices of increasing cuts, from index `a`: the redshifts of a range are on the same side of every cut. -/
theorem mkRanges_spec {zs : List K} (hs : zs.Pairwise (· < ·)) : ∀ (cs : List K) (l : List Int) (a : Nat), CutsOk zs cs l → a < zs.length →
    (∀ v ∈ cs, ∀ (k : Nat) (z : K), zs[k]? = some z → k < a → z ≤ v) →
    ∀ rg ∈ mkRanges zs.length a l, (a : Int) ≤ rg.1 ∧ rg.1 ≤ rg.2 + 1 ∧ rg.1 < zs.length ∧ 0 ≤ rg.2 + 1 ∧ rg.2 < zs.length ∧
      ∀ v ∈ cs, ∀ (i j : Nat) (zi zj : K), rg.1 ≤ i → i ≤ rg.2 → rg.1 ≤ j → j ≤ rg.2 → zs[i]? = some zi → zs[j]? = some zj → zi ≤ v → zj ≤ v
  | [], _, a, ⟨_, .nil⟩, ha, _ => by
    intro rg hrg
    rw [mkRanges, List.mem_singleton] at hrg
    subst hrg
    refine ⟨by simp, by simp only []; omega, by simp only []; omega, by simp only []; omega, by simp only []; omega, by simp⟩
  | c :: cs, m :: l, a, ⟨hp, .cons hm hl⟩, ha, hlow => by
    obtain ⟨i, rfl, hi, hiff⟩ := hm
    have hai : a ≤ i + 1 := by
      by_contra hc
      have hk : i + 1 < zs.length := hi
      have := hlow c (by simp) (i + 1) zs[i + 1] (List.getElem?_eq_getElem hk) (by omega)
      have := (hiff (i + 1) _ (List.getElem?_eq_getElem hk)).1 this
      omega
    have ih := mkRanges_spec hs cs l (i + 1) ⟨List.Pairwise.of_cons hp, hl⟩ hi (by
      intro v hv k z hk hlt
      exact ((hiff k z hk).2 (by omega)).trans (List.rel_of_pairwise_cons hp hv).le)
    intro rg hrg
    rw [mkRanges, List.mem_cons] at hrg
    rcases hrg with rfl | hrg
    · refine ⟨by simp, by simp only []; omega, by simp only []; omega, by simp only []; omega, by simp only []; omega, ?_⟩
      intro v hv i' j zi zj h1 h2 h3 h4 hzi hzj _
      simp only [] at h1 h2 h3 h4
      have hzc : zj ≤ c := (hiff j zj hzj).2 (by omega)
      rcases List.mem_cons.1 hv with rfl | hv
      · exact hzc
      · exact hzc.trans (List.rel_of_pairwise_cons hp hv).le
    · have hrg' : rg ∈ mkRanges zs.length ((i + 1 : Nat) : Int) l := by rw [Nat.cast_add, Nat.cast_one]; exact hrg
      obtain ⟨q1, q2, q3, q4, q5, q6⟩ := ih rg hrg'
      refine ⟨by omega, q2, q3, q4, q5, ?_⟩
      intro v hv i' j zi zj h1 h2 h3 h4 hzi hzj hle
      rcases List.mem_cons.1 hv with rfl | hv
      · exfalso
        have := (hiff i' zi hzi).1 hle
        omega
      · exact q6 v hv i' j zi zj h1 h2 h3 h4 hzi hzj hle

/-- There is an empty range exactly when two cuts have no redshift between them. -/
theorem mkRanges_empty {zs : List K} (hs : zs.Pairwise (· < ·)) : ∀ (cs : List K) (l : List Int) (p : K) (a : Nat), CutsOk zs cs l → a < zs.length →
    (∀ v ∈ cs, p < v) → (∀ (k : Nat) (z : K), zs[k]? = some z → (z ≤ p ↔ k < a)) →
    ((∃ rg ∈ mkRanges zs.length a l, rg.2 < rg.1) ↔ ∃ v v', v ∈ p :: cs ∧ v' ∈ cs ∧ v < v' ∧ ∀ z ∈ zs, ¬ (v < z ∧ z ≤ v'))
  | [], _, p, a, ⟨_, .nil⟩, ha, _, _ => by
    simp [mkRanges]
    omega
  | c :: cs, m :: l, p, a, ⟨hp, .cons hm hl⟩, ha, hpl, hpa => by
    obtain ⟨i, rfl, hi, hiff⟩ := hm
    have hlt := fun v (hv : v ∈ cs) => List.rel_of_pairwise_cons hp hv
    have ih := mkRanges_empty hs cs l c (i + 1) ⟨List.Pairwise.of_cons hp, hl⟩ hi hlt (by
      intro k z hk
      rw [hiff k z hk]; omega)
    have hhead : (i < a) ↔ ∀ z ∈ zs, ¬ (p < z ∧ z ≤ c) := by
      constructor
      · rintro h z hz ⟨h1, h2⟩
        obtain ⟨k, hk, rfl⟩ := List.getElem_of_mem hz
        have h3 := (hiff k _ (List.getElem?_eq_getElem hk)).1 h2
        exact absurd ((hpa k _ (List.getElem?_eq_getElem hk)).2 (by omega)) (not_le.2 h1)
      · intro h
        by_contra hc
        refine h zs[i] (List.getElem_mem _) ⟨not_le.1 fun h => ?_, (hiff i _ (List.getElem?_eq_getElem (by omega))).2 le_rfl⟩
        have := (hpa i _ (List.getElem?_eq_getElem (by omega))).1 h
        omega
    rw [mkRanges]
    constructor
    · rintro ⟨rg, hrg, he⟩
      rcases List.mem_cons.1 hrg with rfl | hrg
      · exact ⟨p, c, by simp, by simp, hpl c (by simp), hhead.1 (by simp only [] at he; omega)⟩
      · obtain ⟨v, v', q1, q2, q3⟩ := ih.1 ⟨rg, by rw [Nat.cast_add, Nat.cast_one]; exact hrg, he⟩
        exact ⟨v, v', List.mem_cons_of_mem _ q1, List.mem_cons_of_mem _ q2, q3⟩
    · rintro ⟨v, v', q1, q2, q3, q4⟩
      rcases List.mem_cons.1 q1 with rfl | q1
      · refine ⟨((a : Int), (i : Int)), by simp, ?_⟩
        have := hhead.2 (fun z hz hh => q4 z hz ⟨hh.1, hh.2.trans (by
          rcases List.mem_cons.1 q2 with rfl | q2
          · exact le_rfl
          · exact (hlt _ q2).le)⟩)
        simp only []
        omega
      · have q2' : v' ∈ cs := by
          rcases List.mem_cons.1 q2 with rfl | q2
          · exfalso
            rcases List.mem_cons.1 q1 with rfl | q1
            · exact lt_irrefl _ q3
            · exact lt_asymm q3 (hlt _ q1)
          · exact q2
        obtain ⟨rg, r1, r2⟩ := ih.2 ⟨v, v', q1, q2', q3, q4⟩
        refine ⟨rg, List.mem_cons_of_mem _ ?_, r2⟩
        rw [Nat.cast_add, Nat.cast_one] at r1
        exact r1

/-- **C129**: the redshifts, in increasing order, are cut into consecutive ranges from the first to the last; the redshifts of a range are
on the same side of every cut. A range is empty exactly when no redshift lies between two cuts. -/
theorem C129_ranges_partial {igm : Bool} {spcAxis bins zs : List K} {l0 front back : K} (hs : zs.Pairwise (· < ·)) (hl : spcAxis[0]? = some l0)
    (hf : zs[0]? = some front) (hb : zs[zs.length - 1]? = some back) (hbins : bins.Pairwise (· < ·)) (hbne : bins ≠ []) :
    ∃ rgs, findZRanges igm spcAxis bins zs = .ok rgs ∧ Chain zs.length 0 rgs ∧
      (∀ rg ∈ rgs, 0 ≤ rg.1 ∧ rg.1 ≤ rg.2 + 1 ∧ rg.1 < zs.length ∧ rg.2 < zs.length) ∧
      (∀ rg ∈ rgs, ∀ v, IsCut igm l0 front back bins v → ∀ (i j : Nat) (zi zj : K), rg.1 ≤ i → i ≤ rg.2 → rg.1 ≤ j → j ≤ rg.2 →
        zs[i]? = some zi → zs[j]? = some zj → (zi ≤ v ↔ zj ≤ v)) ∧
      ((∃ rg ∈ rgs, rg.2 < rg.1) ↔
        ∃ v v', IsCut igm l0 front back bins v ∧ IsCut igm l0 front back bins v' ∧ v < v' ∧ ∀ z ∈ zs, ¬ (v < z ∧ z ≤ v')) := by
  have hne : zs ≠ [] := by rintro rfl; simp at hf
  have hpos := List.length_pos_of_ne_nil hne
  have hsp : ∃ l cs, (if igm = true then Res.at_ spcAxis 0 >>= fun l0 => zSplits zs bins l0 front back else .ok []) = .ok l ∧ CutsOk zs cs l ∧
      ∀ v, v ∈ cs ↔ IsCut igm l0 front back bins v := by
    cases igm with
    | false => exact ⟨[], [], rfl, ⟨.nil, .nil⟩, fun v => by simp [IsCut]⟩
    | true =>
      rw [if_pos rfl, Res.at_eq_ok.2 hl, Res.bind_ok]
      exact zSplits_spec hs hne hf hb hbins hbne
  obtain ⟨l, cs, e, hc, hm⟩ := hsp
  refine ⟨mkRanges zs.length 0 l, ?_, chain_mkRanges _ _ _, ?_⟩
  · unfold findZRanges
    rw [Res.at_eq_ok.2 hf, Res.bind_ok, Res.at_eq_ok.2 hb, Res.bind_ok, e, Res.bind_ok]
  have H := mkRanges_spec hs cs l 0 hc hpos (fun _ _ _ _ _ h => absurd h (Nat.not_lt_zero _))
  rw [Nat.cast_zero] at H
  refine ⟨fun rg hrg => ?_, fun rg hrg v hv i j zi zj h1 h2 h3 h4 hi hj => ?_, ?_⟩
  · obtain ⟨q1, q2, q3, q4, q5, -⟩ := H rg hrg
    exact ⟨q1, q2, q3, q5⟩
  · obtain ⟨-, -, -, -, -, q⟩ := H rg hrg
    exact ⟨q v ((hm v).2 hv) i j zi zj h1 h2 h3 h4 hi hj, q v ((hm v).2 hv) j i zj zi h3 h4 h1 h2 hj hi⟩
  · cases cs with
    | nil =>
      obtain ⟨-, hc⟩ := hc
      cases hc
      simp only [mkRanges, List.mem_singleton, exists_eq_left]
      constructor
      · intro h; omega
      · rintro ⟨v, v', q, -⟩
        have := (hm v).2 q
        cases this
    | cons c cs =>
      cases l with
      | nil => obtain ⟨-, hc⟩ := hc; cases hc
      | cons m l =>
        obtain ⟨hp, hc⟩ := hc
        cases hc with
        | cons hm0 hl =>
        obtain ⟨i, rfl, hi, hiff⟩ := hm0
        have E := mkRanges_empty hs cs l c (i + 1) ⟨List.Pairwise.of_cons hp, hl⟩ hi (fun v hv => List.rel_of_pairwise_cons hp hv) (by
          intro k z hk
          rw [hiff k z hk]; omega)
        rw [mkRanges]
        constructor
        · rintro ⟨rg, hrg, he⟩
          rcases List.mem_cons.1 hrg with rfl | hrg
          · simp only [] at he; omega
          · obtain ⟨v, v', q1, q2, q3⟩ := E.1 ⟨rg, by rw [Nat.cast_add, Nat.cast_one]; exact hrg, he⟩
            exact ⟨v, v', (hm v).1 q1, (hm v').1 (List.mem_cons_of_mem _ q2), q3⟩
        · rintro ⟨v, v', q1, q2, q3, q4⟩
          have q1 := (hm v).2 q1
          have q2 := (hm v').2 q2
          have q2' : v' ∈ cs := by
            rcases List.mem_cons.1 q2 with rfl | q2
            · exfalso
              rcases List.mem_cons.1 q1 with rfl | q1
              · exact lt_irrefl _ q3
              · exact lt_asymm q3 (List.rel_of_pairwise_cons hp q1)
            · exact q2
          obtain ⟨rg, r1, r2⟩ := E.2 ⟨v, v', q1, q2', q3, q4⟩
          refine ⟨rg, List.mem_cons_of_mem _ ?_, r2⟩
          rw [Nat.cast_add, Nat.cast_one] at r1
          exact r1

/-- Two redshifts above the same bounds of bins, the last bound apart, have the same IGM curves. -/
theorem redshiftIndex_congr {t : Meiksin.T K} (hs : t.zbins.Pairwise (· < ·)) (hne : t.zbins ≠ []) {x y : K}
    (h : ∀ b ∈ t.zbins.dropLast, b ≤ x ↔ b ≤ y) : Meiksin.redshiftIndex t x = Meiksin.redshiftIndex t y := by
  have hp := List.length_pos_of_ne_nil hne
  have hk : ∀ (k : Nat) (hk : k + 1 < t.zbins.length), t.zbins[k]'(by omega) ≤ x ↔ t.zbins[k]'(by omega) ≤ y := by
    intro k hk
    apply h
    rw [List.mem_iff_getElem]
    exact ⟨k, by rw [List.length_dropLast]; omega, by rw [List.getElem_dropLast]⟩
  obtain ⟨a1, a2, o, a3⟩ := C08_closestLower t.zbins x (hs.imp fun h => le_of_lt h) hne
  obtain ⟨b1, b2, o', b3⟩ := C08_closestLower t.zbins y (hs.imp fun h => le_of_lt h) hne
  unfold Meiksin.redshiftIndex
  rw [a3, b3, Res.bind_ok, Res.bind_ok]
  cases o with
  | none =>
    cases o' with
    | none => rfl
    | some i =>
      obtain ⟨hi, -, -, q⟩ := b2 i b3
      have q0 := (q hs 0 hp).2 (Nat.zero_le _)
      by_cases h1 : 0 + 1 < t.zbins.length
      · exact absurd ((hk 0 h1).2 q0) (not_le.2 (a1.1 a3 _ (List.getElem_mem _)))
      · have : i = 0 := by omega
        subst this
        simp only []
        rw [if_pos (by omega)]
        rfl
  | some i =>
    obtain ⟨hi, -, -, q⟩ := a2 i a3
    have q := q hs
    cases o' with
    | none =>
      have q0 := (q 0 hp).2 (Nat.zero_le _)
      by_cases h1 : 0 + 1 < t.zbins.length
      · exact absurd ((hk 0 h1).1 q0) (not_le.2 (b1.1 b3 _ (List.getElem_mem _)))
      · have : i = 0 := by omega
        subst this
        simp only []
        rw [if_pos (by omega)]
        rfl
    | some i' =>
      obtain ⟨hi', -, -, q'⟩ := b2 i' b3
      have q' := q' hs
      have e : ∀ k : Nat, k + 1 < t.zbins.length → (k ≤ i ↔ k ≤ i') := fun k h1 => by
        rw [← q k (by omega), ← q' k (by omega), hk k h1]
      have e3 : i + 1 = t.zbins.length ∨ i + 1 < t.zbins.length := by omega
      have e4 : i' + 1 = t.zbins.length ∨ i' + 1 < t.zbins.length := by omega
      simp only []
      congr 1
      rcases e3 with e3 | e3 <;> rcases e4 with e4 | e4
      · rw [if_pos (by omega), if_pos (by omega)]; omega
      · have := e (t.zbins.length - 2) (by omega)
        rw [if_pos (by omega), if_neg (by omega)]; omega
      · have := e (t.zbins.length - 2) (by omega)
        rw [if_neg (by omega), if_pos (by omega)]; omega
      · have h5 := e i e3
        have h6 := e i' e4
        rw [if_neg (by omega), if_neg (by omega)]; omega

/-- **C129**: the redshifts of a range that are no bound of an IGM bin have the same IGM curves, unless no wavelength of the spectrum is below 1216
at rest at any of them. -/
theorem C129_curves {t : Meiksin.T K} {spcAxis zs : List K} {l0 : K} {rgs : List (Int × Int)} (hs : zs.Pairwise (· < ·))
    (hz : ∀ z ∈ zs, -1 < z) (hl : spcAxis[0]? = some l0) (hbins : t.zbins.Pairwise (· < ·)) (hbne : t.zbins ≠ [])
    (hok : findZRanges true spcAxis t.zbins zs = .ok rgs) (rg : Int × Int) (hrg : rg ∈ rgs) (i j : Nat) (zi zj : K) (h1 : rg.1 ≤ i)
    (h2 : i ≤ rg.2) (h3 : rg.1 ≤ j) (h4 : j ≤ rg.2) (hi : zs[i]? = some zi) (hj : zs[j]? = some zj) (ni : zi ∉ t.zbins) (nj : zj ∉ t.zbins) :
    (1216 ≤ l0 / (1 + zi) ∧ 1216 ≤ l0 / (1 + zj)) ∨ Meiksin.redshiftIndex t zi = Meiksin.redshiftIndex t zj := by
  have hpos : 0 < zs.length := by have := (List.getElem?_eq_some_iff.1 hi).1; omega
  obtain ⟨rgs', e, -, -, hside, -⟩ := C129_ranges_partial (igm := true) hs hl (List.getElem?_eq_getElem hpos)
    (List.getElem?_eq_getElem (by omega : zs.length - 1 < zs.length)) hbins hbne
  rw [hok] at e
  cases e
  set front := zs[0] with hfr
  set back := zs[zs.length - 1] with hba
  have hle : ∀ (k : Nat) (z : K), zs[k]? = some z → front ≤ z ∧ z ≤ back := by
    intro k z hk
    obtain ⟨hk2, rfl⟩ := List.getElem?_eq_some_iff.1 hk
    exact ⟨getElem_le_of_le (hs.imp fun h => le_of_lt h) (Nat.zero_le _) hk2, getElem_le_of_le (hs.imp fun h => le_of_lt h) (by omega) (by omega)⟩
  have hrest : ∀ z, z ∈ zs → z ≤ l0 / 1216 - 1 → 1216 ≤ l0 / (1 + z) := by
    intro z hm h
    have := hz z hm
    rw [le_div_iff₀ (by linarith)]
    have h2 : (1 + z) * 1216 ≤ l0 := by
      rw [← le_div_iff₀ (by norm_num)]; linarith
    linarith
  have hmi := List.mem_of_getElem? hi
  have hmj := List.mem_of_getElem? hj
  by_cases c1 : zi ≤ l0 / 1216 - 1 ∧ zj ≤ l0 / 1216 - 1
  · exact Or.inl ⟨hrest _ hmi c1.1, hrest _ hmj c1.2⟩
  right
  have c2 : l0 / 1216 - 1 ≤ zi ∧ l0 / 1216 - 1 ≤ zj := by
    by_cases d1 : front < l0 / 1216 - 1
    · by_cases d2 : l0 / 1216 - 1 < back
      · have := hside rg hrg _ ⟨rfl, d1, d2, Or.inl rfl⟩ i j zi zj h1 h2 h3 h4 hi hj
        constructor
        · by_contra hc
          push Not at hc
          exact c1 ⟨hc.le, this.1 hc.le⟩
        · by_contra hc
          push Not at hc
          exact c1 ⟨this.2 hc.le, hc.le⟩
      · push Not at d2
        exact absurd ⟨(hle i zi hi).2.trans d2, (hle j zj hj).2.trans d2⟩ c1
    · push Not at d1
      exact ⟨d1.trans (hle i zi hi).1, d1.trans (hle j zj hj).1⟩
  apply redshiftIndex_congr hbins hbne
  intro b hb
  have hbm := List.dropLast_subset _ hb
  have ne1 : zi ≠ b := fun h => ni (h ▸ hbm)
  have ne2 : zj ≠ b := fun h => nj (h ▸ hbm)
  by_cases d0 : b ≤ l0 / 1216 - 1
  · exact ⟨fun _ => d0.trans c2.2, fun _ => d0.trans c2.1⟩
  push Not at d0
  by_cases d1 : front < b
  · by_cases d2 : b < back
    · have := hside rg hrg _ ⟨rfl, d1, d2, Or.inr ⟨hb, d0⟩⟩ i j zi zj h1 h2 h3 h4 hi hj
      constructor
      · intro h
        by_contra hc
        push Not at hc
        exact ne1 (le_antisymm (this.2 hc.le) h)
      · intro h
        by_contra hc
        push Not at hc
        exact ne2 (le_antisymm (this.1 hc.le) h)
    · push Not at d2
      constructor
      · intro h; exact absurd (le_antisymm ((hle i zi hi).2.trans d2) h) ne1
      · intro h; exact absurd (le_antisymm ((hle j zj hj).2.trans d2) h) ne2
  · push Not at d1
    exact ⟨fun _ => d1.trans (hle j zj hj).1, fun _ => d1.trans (hle i zi hi).1⟩

/-- The fit of an empty range does not return. -/
theorem fitRangez_nil {σ : Type} {sq : K → K} {est : Nat → σ → List K → List K → ℤ → Res (List K × σ)} {s0 : σ} {x : Ctx K} {inv : List K} {dtd : K}
    {rg : Int × Int} {t : Tpl.T K} {r : List (Row K) × Tpl.T K} : fitRangez sq est s0 x inv dtd rg [] t ≠ .ok r := by
  intro h
  unfold fitRangez at h
  by_cases h0 : rg.1 < 0 ∨ rg.2 < 0
  · rw [if_pos h0] at h; cases h
  rw [if_neg h0] at h
  obtain ⟨_, -, h⟩ := Res.bind_eq_ok.1 h
  obtain ⟨_, h1, -⟩ := Res.bind_eq_ok.1 h
  exact absurd (Res.at_eq_ok.1 h1) (by simp)

theorem allzLoop_nonempty [FloorRing K] {σ : Type} {sq lg : K → K} {est : Nat → σ → List K → List K → ℤ → Res (List K × σ)} {s0 : σ} {x : Ctx K}
    {step : K} {inv : List K} {dtd : K} {ei : K → Res Int} {priors : List (List (TplFit.Prior K))} {zs : List K} (hi : x.igm = true) (hl : 1 < zs.length) :
    ∀ (rgs : List (Int × Int)) (st r : List (Option (Row K)) × Tpl.T K), allzLoop sq lg est s0 x step inv dtd ei priors zs rgs st = .ok r →
      ∀ rg ∈ rgs, rg.1 ≤ rg.2
  | [], _, _, _ => by simp
  | rg :: rgs, st, r, h => by
    unfold allzLoop at h
    obtain ⟨st', h1, h⟩ := Res.bind_eq_ok.1 h
    have ih := allzLoop_nonempty hi hl rgs st' r h
    intro q hq
    rcases List.mem_cons.1 hq with rfl | hq
    · by_contra hc
      unfold allzStep at h1
      obtain ⟨_, -, h1⟩ := Res.bind_eq_ok.1 h1
      obtain ⟨_, -, h1⟩ := Res.bind_eq_ok.1 h1
      by_cases h2 : q.2 + 1 < q.1
      · rw [if_pos h2] at h1; cases h1
      rw [if_neg h2] at h1
      simp only [] at h1
      obtain ⟨il, -, h1⟩ := Res.bind_eq_ok.1 h1
      rw [if_pos ⟨hi, hl⟩, show (q.2 + 1).toNat = q.1.toNat by omega] at h1
      rw [List.drop_eq_nil_of_le (by rw [List.length_take]; omega)] at h1
      obtain ⟨_, h1, -⟩ := Res.bind_eq_ok.1 h1
      exact fitRangez_nil h1
    · exact ih q hq

/-- **C129**: when no redshift lies between two cuts, the fit does not return a result: it reads the first redshift of an empty list (or throws before). -/
theorem C129_two_cuts_fail [FloorRing K] {σ : Type} {sq lg : K → K} {est : Nat → σ → List K → List K → ℤ → Res (List K × σ)} {s0 : σ} {x : Ctx K}
    {step : K} {err bins : List K} {ei : K → Res Int} {priors : List (List (TplFit.Prior K))} {zs : List K} {t : Tpl.T K}
    {l0 front back v v' : K} (hs : zs.Pairwise (· < ·)) (hl : x.spcAxis[0]? = some l0) (hf : zs[0]? = some front)
    (hb : zs[zs.length - 1]? = some back) (hbins : bins.Pairwise (· < ·)) (hv : IsCut x.igm l0 front back bins v)
    (hv' : IsCut x.igm l0 front back bins v') (hlt : v < v') (hno : ∀ z ∈ zs, ¬ (v < z ∧ z ≤ v')) (r : List (Option (Row K)) × Tpl.T K) :
    fitAllz sq lg est s0 x step err bins ei priors zs t ≠ .ok r := by
  intro h
  have hbne : bins ≠ [] := by
    rintro rfl
    rcases hv.2.2.2 with e | ⟨e, -⟩
    · rcases hv'.2.2.2 with e' | ⟨e', -⟩
      · rw [e, e'] at hlt; exact lt_irrefl _ hlt
      · cases e'
    · cases e
  obtain ⟨rgs, e, -, -, -, hem⟩ := C129_ranges_partial (igm := x.igm) hs hl hf hb hbins hbne
  obtain ⟨rg, hrg, hlt⟩ := hem.2 ⟨v, v', hv, hv', hlt, hno⟩
  unfold fitAllz at h
  rw [e, Res.bind_ok] at h
  obtain ⟨q, -, h⟩ := Res.bind_eq_ok.1 h
  have h1 : 1 < zs.length := by
    by_contra hc
    have : zs.length - 1 = 0 := by omega
    rw [this, hf] at hb
    cases hb
    exact absurd (hv.2.1.trans hv.2.2.1) (lt_irrefl _)
  have := allzLoop_nonempty hv.1 h1 _ _ _ h rg hrg
  omega

/-- Three ranges: the spectrum starts at 3648, so that the absorption starts at redshift 2; a bound of bins is at 7/2. -/
example : findZRanges true [3648, 4000] [(0 : ℚ), 1, 7 / 2, 9] [1, 3 / 2, 2, 5 / 2, 3, 4, 5] = .ok [(0, 2), (3, 4), (5, 6)] := by decide +kernel

/-- The hypotheses of `C129_ranges_partial` and `C129_curves` hold in this case. -/
example : ([1, 3 / 2, 2, 5 / 2, 3, 4, 5] : List ℚ).Pairwise (· < ·) ∧ ([0, 1, 7 / 2, 9] : List ℚ).Pairwise (· < ·) ∧
    IsCut true (3648 : ℚ) 1 5 [0, 1, 7 / 2, 9] 2 ∧ IsCut true (3648 : ℚ) 1 5 [0, 1, 7 / 2, 9] (7 / 2) := by
  refine ⟨by decide +kernel, by decide +kernel, ⟨rfl, by norm_num, by norm_num, Or.inl (by norm_num)⟩,
    ⟨rfl, by norm_num, by norm_num, Or.inr ⟨by simp, by norm_num⟩⟩⟩

/-- **C129**: two bounds of bins between two redshifts give an empty range (`C129_two_cuts_fail` then applies). -/
theorem C129_empty_counterexample : findZRanges true [1216, 4000] [(0 : ℚ), 11 / 5, 12 / 5, 9] [1, 2, 3] = .ok [(0, 1), (2, 1), (2, 2)] ∧
    IsCut true (1216 : ℚ) 1 3 [0, 11 / 5, 12 / 5, 9] (11 / 5) ∧ IsCut true (1216 : ℚ) 1 3 [0, 11 / 5, 12 / 5, 9] (12 / 5) ∧
    ∀ z ∈ ([1, 2, 3] : List ℚ), ¬ (11 / 5 < z ∧ z ≤ 12 / 5) := by
  refine ⟨by decide +kernel, ⟨rfl, by norm_num, by norm_num, Or.inr ⟨by simp, by norm_num⟩⟩,
    ⟨rfl, by norm_num, by norm_num, Or.inr ⟨by simp, by norm_num⟩⟩, by decide +kernel⟩

/-- **C129**: a redshift that is a bound of bins is put in the range below it, whose first redshift has other IGM curves. -/
theorem C129_bound_counterexample : findZRanges true [1216, 4000] [(0 : ℚ), 2, 4] [1, 2, 3] = .ok [(0, 1), (2, 2)] ∧
    Meiksin.redshiftIndex (⟨[0, 2, 4], [], [], 0, 0, 0, false⟩ : Meiksin.T ℚ) 1 = .ok 0 ∧
    Meiksin.redshiftIndex (⟨[0, 2, 4], [], [], 0, 0, 0, false⟩ : Meiksin.T ℚ) 2 = .ok 1 := by decide +kernel

end TplLog
end Amazed
