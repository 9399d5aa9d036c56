import Verif.Model.DirInt
import Verif.Props.SpcModelProps
import Verif.Props.RangeProps
import Verif.Props.FluxAxisProps
import Mathlib.Data.List.GetD

set_option linter.unusedVariables false
set_option linter.unusedSectionVars false

/-! # Flux of lines by direct integration (C159, C160) -/

namespace Amazed
namespace DirInt
open EltSup EltList SpcModel

variable {K : Type} [Field K] [LinearOrder K] [IsStrictOrderedRing K] {G : Type} [LinearOrder G]

/-- Sample `p` is in the window of size `win` around `mu`, cut at the wavelength range: the samples from the first one not below the window (the last sample
of the axis if there is none) to the first one not below its end, none beyond the wavelength range. -/
def InWindow (axis : List K) (lr : Range K) (mu win : K) (p : Nat) : Prop :=
  ∃ x, axis[p]? = some x ∧ (max lr.b (mu - win / 2) ≤ x ∨ p + 1 = axis.length) ∧ x ≤ lr.e ∧
    ∀ (j : Nat) y, j < p → axis[j]? = some y → y < min lr.e (mu + win / 2)

theorem inWindow_mono {axis : List K} {lr : Range K} {mu win win' : K} (h : win ≤ win') {p : Nat} (hp : InWindow axis lr mu win p) : InWindow axis lr mu win' p := by
  obtain ⟨x, h1, h2, h3, h4⟩ := hp
  refine ⟨x, h1, ?_, h3, fun j y hj hy => lt_of_lt_of_le (h4 j y hj hy) (min_le_min_left _ (by linarith))⟩
  rcases h2 with h2 | h2
  · exact Or.inl (le_trans (max_le_max_left _ (by linarith)) h2)
  · exact Or.inr h2

/-- Every sample whose wavelength is in the cut window is in it. -/
theorem inWindow_of_mem {axis : List K} (hs : SAxis.Increasing axis) {lr : Range K} {mu win : K} {p : Nat} (hp : p < axis.length)
    (h1 : max lr.b (mu - win / 2) ≤ axis[p]) (h2 : axis[p] ≤ min lr.e (mu + win / 2)) : InWindow axis lr mu win p := by
  refine ⟨axis[p], List.getElem?_eq_getElem hp, Or.inl h1, le_trans h2 (min_le_left _ _), ?_⟩
  intro j y hj hy
  obtain ⟨hjl, rfl⟩ := List.getElem?_eq_some_iff.1 hy
  exact lt_of_lt_of_le (axis_lt hs hjl hp hj) h2

theorem indexRange_mem (axis : List K) (hs : SAxis.Increasing axis) (hne : axis ≠ []) (lr : Range K) (mu win : K) :
    ∃ b e : ℤ, indexRange axis mu lr win = .ok (b, e) ∧ 0 ≤ b ∧ b < axis.length ∧ b ≤ e + 1 ∧ e < axis.length ∧
      ∀ p : Nat, (b ≤ p ∧ (p : ℤ) ≤ e) ↔ InWindow axis lr mu win p := by
  obtain ⟨ib, ie, e, hb, he, h1, h2, h3, h4, h5, e1, h6, h7⟩ := indexRange_spec axis hs hne lr ⟨true, mu, win⟩
  have hpos := List.length_pos_iff.2 hne
  simp only [lo, hi] at h2 h3 h4 h5
  have hle : e1 ≤ ie := by rw [h6]; split <;> omega
  refine ⟨ib, e, h1, by omega, by omega, by rw [h7]; split <;> omega, by rw [h7]; split <;> omega, ?_⟩
  intro p
  constructor
  · rintro ⟨a, b⟩
    have hee : e = e1 := by
      rw [h7]; split
      · rename_i h; rw [if_pos h] at h7; omega
      · rfl
    have hpl : p < axis.length := by omega
    refine ⟨axis[p], List.getElem?_eq_getElem hpl, ?_, ?_, ?_⟩
    · rcases h3 with h3 | ⟨h3, _⟩
      · left
        rcases Nat.lt_or_ge ib p with hlt | hge
        · exact le_trans h3 (axis_lt hs hb hpl hlt).le
        · have : ib = p := by omega
          subst this; exact h3
      · right; omega
    · rcases Nat.lt_or_ge p ie with hlt | hge
      · exact le_trans (h4 p hpl hlt).le (min_le_left _ _)
      · have : p = ie := by omega
        subst this
        by_contra hc
        rw [if_pos (not_le.1 hc)] at h6
        omega
    · intro j y hj hy
      obtain ⟨hjl, rfl⟩ := List.getElem?_eq_some_iff.1 hy
      exact h4 j hjl (by omega)
  · rintro ⟨x, hx, a, b, c⟩
    obtain ⟨hpl, rfl⟩ := List.getElem?_eq_some_iff.1 hx
    have hbp : ib ≤ p := by
      by_contra hh
      rcases a with a | a
      · exact absurd (h2 p hpl (by omega)) (not_lt.2 a)
      · omega
    have hpe : p ≤ ie := by
      by_contra hh
      have hlt := c ie axis[ie] (by omega) (List.getElem?_eq_getElem he)
      rcases h5 with h5 | ⟨h5, _⟩
      · exact absurd hlt (not_lt.2 h5)
      · omega
    have hpe1 : (p : ℤ) ≤ e1 := by
      rw [h6]; split
      · rename_i hh
        have : p ≠ ie := by rintro rfl; exact absurd b (not_le.2 hh)
        omega
      · omega
    refine ⟨by omega, ?_⟩
    rw [h7, if_neg (by omega)]
    exact hpe1

/-! ## Joining the ranges of samples -/

theorem joinGo_int (cur : Range ℤ) (rs : List (Range ℤ)) (hs : (cur :: rs).Pairwise (fun a b => a.b ≤ b.b)) :
    (∀ x, (∃ r ∈ Range.joinGo cur rs, r.Mem x) ↔ (cur.Mem x ∨ ∃ r ∈ rs, r.Mem x)) ∧
    (Range.joinGo cur rs).Pairwise (fun a b => a.e < b.b) ∧
    (∀ r ∈ Range.joinGo cur rs, cur.b ≤ r.b ∧ (∃ a ∈ cur :: rs, a.b = r.b) ∧ ∃ a ∈ cur :: rs, a.e = r.e) := by
  induction rs generalizing cur with
  | nil => simp [Range.joinGo]
  | cons r rs ih =>
    have hcb : cur.b ≤ r.b := by
      rw [List.pairwise_cons] at hs; exact hs.1 r (by simp)
    unfold Range.joinGo
    by_cases h : cur.e ≥ r.b
    · rw [if_pos h]
      have hs' : ((⟨cur.b, max cur.e r.e⟩ : Range ℤ) :: rs).Pairwise (fun a b => a.b ≤ b.b) := by
        rw [List.pairwise_cons] at hs ⊢
        exact ⟨fun a ha => hs.1 a (by simp [ha]), (List.pairwise_cons.1 hs.2).2⟩
      obtain ⟨h1, h2, h3⟩ := ih ⟨cur.b, max cur.e r.e⟩ hs'
      refine ⟨fun x => ?_, h2, ?_⟩
      · rw [h1]
        have : (⟨cur.b, max cur.e r.e⟩ : Range ℤ).Mem x ↔ cur.Mem x ∨ r.Mem x := by
          simp only [Range.Mem]; omega
        rw [this]
        simp only [List.mem_cons, exists_eq_or_imp]
        tauto
      · intro a ha
        obtain ⟨q1, ⟨b, hb, q2⟩, c, hc, q3⟩ := h3 a ha
        refine ⟨q1, ?_, ?_⟩
        · rcases List.mem_cons.1 hb with rfl | hb
          · exact ⟨cur, by simp, q2⟩
          · exact ⟨b, by simp [hb], q2⟩
        · rcases List.mem_cons.1 hc with rfl | hc
          · simp only at q3
            rcases le_total cur.e r.e with hh | hh
            · exact ⟨r, by simp, by rw [max_eq_right hh] at q3; exact q3⟩
            · exact ⟨cur, by simp, by rw [max_eq_left hh] at q3; exact q3⟩
          · exact ⟨c, by simp [hc], q3⟩
    · rw [if_neg h]
      obtain ⟨h1, h2, h3⟩ := ih r (List.pairwise_cons.1 hs).2
      refine ⟨fun x => ?_, ?_, ?_⟩
      · simp only [List.mem_cons, exists_eq_or_imp]
        rw [h1]
      · rw [List.pairwise_cons]
        exact ⟨fun a ha => lt_of_lt_of_le (not_le.1 h) (h3 a ha).1, h2⟩
      · intro a ha
        rw [List.mem_cons] at ha
        rcases ha with rfl | ha
        · exact ⟨le_rfl, ⟨a, by simp, rfl⟩, a, by simp, rfl⟩
        · obtain ⟨q1, ⟨b, hb, q2⟩, c, hc, q3⟩ := h3 a ha
          exact ⟨le_trans hcb q1, ⟨b, List.mem_cons_of_mem _ hb, q2⟩, c, List.mem_cons_of_mem _ hc, q3⟩

theorem joinZ_spec (rs : List (ℤ × ℤ)) (hne : rs ≠ []) :
    ∃ out, joinZ rs = .ok out ∧ out ≠ [] ∧ (∀ x : ℤ, (∃ r ∈ out, r.1 ≤ x ∧ x ≤ r.2) ↔ ∃ r ∈ rs, r.1 ≤ x ∧ x ≤ r.2) ∧
      out.Pairwise (fun a b => a.2 < b.1) ∧ ∀ r ∈ out, (∃ a ∈ rs, a.1 = r.1) ∧ ∃ a ∈ rs, a.2 = r.2 := by
  unfold joinZ
  match rs, hne with
  | [r], _ => exact ⟨[r], by simp [Range.joinIntersections, Res.bind_ok], by simp, by simp, by simp, by simp⟩
  | r1 :: r2 :: rs', _ =>
    simp only [List.map_cons]
    set l : List (Range ℤ) := (⟨r1.1, r1.2⟩ : Range ℤ) :: ⟨r2.1, r2.2⟩ :: rs'.map (fun r => (⟨r.1, r.2⟩ : Range ℤ)) with hl
    have hperm := List.mergeSort_perm l (fun r s => !(Range.lt s r))
    have hsort := List.pairwise_mergeSort
      (le := fun r s => !(Range.lt (α := ℤ) s r)) (fun a b c => Range.notLt_trans a b c)
      (fun a b => Range.notLt_total a b) l
    have hll : ∀ a : Range ℤ, a ∈ l ↔ (a.b, a.e) ∈ r1 :: r2 :: rs' := by
      intro a
      have : l = (r1 :: r2 :: rs').map (fun r => (⟨r.1, r.2⟩ : Range ℤ)) := rfl
      rw [this, List.mem_map]
      constructor
      · rintro ⟨r, hr, rfl⟩; exact hr
      · intro h; exact ⟨_, h, rfl⟩
    have hj : Range.joinIntersections l = match l.mergeSort (fun r s => !(Range.lt s r)) with
      | [] => .ub
      | c :: cs => .ok (Range.joinGo c cs) := by
      rw [hl]; simp only [Range.joinIntersections]
      generalize List.mergeSort _ _ = mm
      cases mm <;> rfl
    rw [hj]
    generalize hm : l.mergeSort (fun r s => !(Range.lt s r)) = m at *
    cases m with
    | nil => have := hperm.length_eq; rw [hl] at this; simp at this
    | cons c cs =>
      have hmem : ∀ a : Range ℤ, a ∈ c :: cs ↔ (a.b, a.e) ∈ r1 :: r2 :: rs' := fun a => (hperm.mem_iff).trans (hll a)
      have hs : (c :: cs).Pairwise (fun a b => a.b ≤ b.b) := by
        refine hsort.imp ?_
        intro a b hab
        unfold Range.lt at hab
        grind
      obtain ⟨h1, h2, h3⟩ := joinGo_int c cs hs
      refine ⟨_, rfl, ?_, ?_, ?_, ?_⟩
      · intro h
        rw [List.map_eq_nil_iff] at h
        have := (h1 0)
        cases cs <;> simp [Range.joinGo] at h
        split at h
        · have hx : ∀ (cur : Range ℤ) (l : List (Range ℤ)), Range.joinGo cur l ≠ [] := by
            intro cur l
            induction l generalizing cur with
            | nil => simp [Range.joinGo]
            | cons a l ih => unfold Range.joinGo; split <;> simp [ih]
          exact hx _ _ h
        · simp at h
      · intro x
        have e1 : (∃ r ∈ (Range.joinGo c cs).map fun r => (r.b, r.e), r.1 ≤ x ∧ x ≤ r.2) ↔ ∃ r ∈ Range.joinGo c cs, r.Mem x := by
          simp [Range.Mem]
        rw [e1, h1]
        constructor
        · rintro (h | ⟨r, hr, h⟩)
          · exact ⟨_, (hmem c).1 (by simp), h⟩
          · exact ⟨_, (hmem r).1 (by simp [hr]), h⟩
        · rintro ⟨r, hr, h⟩
          have := (hmem ⟨r.1, r.2⟩).2 hr
          rw [List.mem_cons] at this
          rcases this with h' | h'
          · left; rw [← h']; exact h
          · exact .inr ⟨_, h', h⟩
      · rw [List.pairwise_map]; exact h2
      · intro r hr
        obtain ⟨q, hq, rfl⟩ := List.mem_map.1 hr
        obtain ⟨_, ⟨a, ha, ha'⟩, b, hb, hb'⟩ := h3 q hq
        exact ⟨⟨_, (hmem a).1 ha, ha'⟩, _, (hmem b).1 hb, hb'⟩

/-! ## The loops on the samples -/

theorem setAll_ok (f : Nat → K → Res K) (F : Nat → K → K) (l : List ℤ) (hd : l.Nodup) (v : List K) (hl : ∀ z ∈ l, 0 ≤ z ∧ z < v.length)
    (hf : ∀ z ∈ l, ∀ y, f z.toNat y = .ok (F z.toNat y)) :
    ∃ v', setAll f l v = .ok v' ∧ v'.length = v.length ∧ ∀ p : Nat, ((p : ℤ) ∈ l → v'[p]? = (v[p]?).map (F p)) ∧ ((p : ℤ) ∉ l → v'[p]? = v[p]?) := by
  induction l generalizing v with
  | nil => exact ⟨v, rfl, rfl, fun p => ⟨by simp, fun _ => rfl⟩⟩
  | cons z l ih =>
    rw [List.nodup_cons] at hd
    have hz := hl z (by simp)
    obtain ⟨n, rfl⟩ : ∃ n : Nat, z = n := ⟨z.toNat, by omega⟩
    have hn : n < v.length := by omega
    have hfz := hf n (by simp) v[n]
    simp only [Int.toNat_natCast] at hfz
    obtain ⟨v', h1, h2, h3⟩ := ih hd.2 (v.set n (F n v[n])) (fun z hz => by rw [List.length_set]; exact hl z (by simp [hz])) (fun z hz => hf z (by simp [hz]))
    refine ⟨v', ?_, by rw [h2, List.length_set], ?_⟩
    · unfold setAll at h1 ⊢
      unfold foldL
      rw [if_neg (by omega), Int.toNat_natCast, Res.at_of_lt hn, Res.bind_ok, hfz, Res.bind_ok, Res.bind_ok, h1]
    · intro p
      constructor
      · intro hp
        rcases List.mem_cons.1 hp with hp | hp'
        · have : p = n := by omega
          subst this
          rw [(h3 p).2 hd.1, List.getElem?_set_self hn, List.getElem?_eq_getElem hn, Option.map_some]
        · have : p ≠ n := by
            intro hpn; rw [hpn] at hp'; exact hd.1 hp'
          rw [(h3 p).1 hp', List.getElem?_set_ne (by omega)]
      · intro hp
        rw [List.mem_cons, not_or] at hp
        rw [(h3 p).2 hp.2, List.getElem?_set_ne (by omega)]

theorem zrange_nodup (r : ℤ × ℤ) : (zrange r).Nodup := by
  unfold zrange
  apply List.Nodup.map _ List.nodup_range
  intro a b h
  simpa using h

theorem flat_nodup {l : List (ℤ × ℤ)} (h : l.Pairwise (fun a b => a.2 < b.1)) : (l.flatMap zrange).Nodup := by
  induction l with
  | nil => simp
  | cons r l ih =>
    rw [List.pairwise_cons] at h
    rw [List.flatMap_cons]
    refine List.Nodup.append (zrange_nodup r) (ih h.2) ?_
    intro x hx hy
    rw [zrange_mem] at hx
    obtain ⟨s, hs, hxs⟩ := List.mem_flatMap.1 hy
    rw [zrange_mem] at hxs
    have := h.1 s hs
    omega

theorem trapez_congr (xs ys ys' : List K) (b e : Nat) (h : ∀ p, b ≤ p → p ≤ e → ys.getD p 0 = ys'.getD p 0) :
    Flux.trapez xs ys b e = Flux.trapez xs ys' b e := by
  unfold Flux.trapez
  congr 1
  apply List.map_congr_left
  intro k hk
  rw [List.mem_range] at hk
  rw [h (b + k + 1) (by omega) (by omega), h (b + k) (by omega) (by omega)]

/-- The list of indexes has a last member with a property that one of them has. -/
theorem last_with {α : Type} (P : α → Prop) : ∀ l : List α, (∃ a ∈ l, P a) → ∃ a i b, l = a ++ i :: b ∧ P i ∧ ∀ j ∈ b, ¬ P j := by
  intro l
  induction l with
  | nil => simp
  | cons x l ih =>
    rintro ⟨a, ha, hpa⟩
    by_cases h : ∃ a ∈ l, P a
    · obtain ⟨a, i, b, h1, h2, h3⟩ := ih h
      exact ⟨x :: a, i, b, by rw [h1]; rfl, h2, h3⟩
    · rcases List.mem_cons.1 ha with rfl | ha
      · exact ⟨[], a, l, rfl, hpa, fun j hj hpj => h ⟨j, hj, hpj⟩⟩
      · exact absurd ⟨a, ha, hpa⟩ h

end DirInt
end Amazed
