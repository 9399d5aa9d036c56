import Mathlib.Data.List.Sort
import Verif.Props.TplCombScale

/-! # Template combination: C138 (all the redshifts), C139 (model spectrum) -/

set_option linter.unusedSectionVars false
set_option linter.unusedVariables false

namespace Amazed
namespace TplComb

open TplFit

variable {K : Type} [Field K] [LinearOrder K] [IsStrictOrderedRing K]

/-! ## C138 -/

theorem pairLe_total : Std.Total (fun p q : K × Nat => pairLe p q = true) := ⟨fun p q => by
  unfold pairLe
  simp only [Bool.or_eq_true, Bool.and_eq_true, decide_eq_true_eq]
  rcases lt_trichotomy p.1 q.1 with h | h | h
  · exact Or.inl (Or.inl h)
  · rcases le_total p.2 q.2 with h' | h'
    · exact Or.inl (Or.inr ⟨h, h'⟩)
    · exact Or.inr (Or.inr ⟨h.symm, h'⟩)
  · exact Or.inr (Or.inl h)⟩

theorem pairLe_trans : IsTrans (K × Nat) (fun p q : K × Nat => pairLe p q = true) := ⟨fun p q r h1 h2 => by
  unfold pairLe at h1 h2 ⊢
  simp only [Bool.or_eq_true, Bool.and_eq_true, decide_eq_true_eq] at h1 h2 ⊢
  rcases h1 with h1 | ⟨h1, h1'⟩ <;> rcases h2 with h2 | ⟨h2, h2'⟩
  · exact Or.inl (h1.trans h2)
  · exact Or.inl (by rw [← h2]; exact h1)
  · exact Or.inl (by rw [h1]; exact h2)
  · exact Or.inr ⟨h1.trans h2, h1'.trans h2'⟩⟩

/-- The redshifts of the results: in increasing order, each one with its index in the list given. -/
theorem sorted_spec (zs : List K) : ((sorted zs).map Prod.fst).Pairwise (· ≤ ·) ∧ ((sorted zs).map Prod.fst).Perm zs ∧
    ∀ p ∈ sorted zs, zs[p.2]? = some p.1 := by
  have hp : (sorted zs).Perm zs.zipIdx := List.perm_insertionSort _ _
  refine ⟨?_, ?_, fun p hp' => ?_⟩
  · have := pairLe_total (K := K)
    have := pairLe_trans (K := K)
    have := List.pairwise_insertionSort (fun p q : K × Nat => pairLe p q = true) zs.zipIdx
    rw [List.pairwise_map]
    refine this.imp ?_
    intro a b h
    unfold pairLe at h
    simp only [Bool.or_eq_true, Bool.and_eq_true, decide_eq_true_eq] at h
    rcases h with h | ⟨h, -⟩
    · exact h.le
    · exact h.le
  · have := hp.map Prod.fst
    rwa [List.zipIdx_map_fst] at this
  · have := hp.subset hp'
    rw [List.mem_zipIdx_iff_getElem?] at this
    exact this

theorem fits_spec {v : Env K} {lr : Range K} {thr : K} {masks : List (List Nat)} : ∀ (ps : List (K × Nat)) (rs : List (K × Option K × Result K)),
    fits v lr thr masks ps = .ok rs → rs.map Prod.fst = ps.map Prod.fst ∧
      List.Forall₂ (fun p x => x.1 = p.1 ∧ ∃ m, (masks = [] ∧ m = List.replicate v.axis.length 1 ∨ masks ≠ [] ∧ masks[p.2]? = some m) ∧ basicFit v lr thr m p.1 = .ok x.2) ps rs := by
  intro ps
  induction ps with
  | nil => intro rs h; cases h; exact ⟨rfl, .nil⟩
  | cons p ps ih =>
    intro rs h
    unfold fits at h
    obtain ⟨m, h1, h⟩ := Res.bind_eq_ok.1 h
    obtain ⟨r, h2, h⟩ := Res.bind_eq_ok.1 h
    obtain ⟨rs', h3, h⟩ := Res.bind_eq_ok.1 h
    cases h
    obtain ⟨i1, i2⟩ := ih rs' h3
    refine ⟨by rw [List.map_cons, List.map_cons, i1], .cons ⟨rfl, m, ?_, h2⟩ i2⟩
    by_cases hm : masks.length = 0
    · rw [if_pos hm] at h1
      cases h1
      exact Or.inl ⟨List.length_eq_zero_iff.1 hm, rfl⟩
    · rw [if_neg hm] at h1
      exact Or.inr ⟨fun hx => hm (by rw [hx]; rfl), Res.at_eq_ok.1 h1⟩

/-- The constant of the likelihood: `-n/2 log(2 π)` minus the sum of the logarithms of the errors, over the samples in the range. -/
def IsCst (lg : K → K) (l2pi : K) (axis err : List K) (r : Range K) (c : K) : Prop :=
  ∃ l : List Nat, l.Nodup ∧ (∀ j : Nat, j ∈ l ↔ ∃ x, axis[j]? = some x ∧ r.Mem x) ∧
    c = -(l.length : K) / 2 * l2pi - (l.map fun j => lg (err.getD j 0)).sum ∧ ∀ j ∈ l, 0 < err.getD j 0

theorem sumLog_spec {lg : K → K} {err : List K} {a : Nat} : ∀ (n : Nat) (s : K), sumLog lg err a n = .ok s →
    s = ((List.range' a n).map fun j => lg (err.getD j 0)).sum ∧ ∀ j ∈ List.range' a n, 0 < err.getD j 0 := by
  intro n
  induction n with
  | zero => intro s h; cases h; exact ⟨by simp, by simp⟩
  | succ n ih =>
    intro s h
    unfold sumLog at h
    obtain ⟨s0, h1, h⟩ := Res.bind_eq_ok.1 h
    obtain ⟨e, h2, h⟩ := Res.bind_eq_ok.1 h
    have h2 := Res.at_eq_ok.1 h2
    by_cases he : e ≤ 0
    · rw [if_pos he] at h; cases h
    rw [if_neg he] at h
    cases h
    obtain ⟨i1, i2⟩ := ih s0 h1
    have hg : err.getD (a + n) 0 = e := by rw [List.getD_eq_getElem?_getD, h2]; rfl
    rw [List.range'_concat]
    refine ⟨by rw [List.map_append, List.sum_append, ← i1, one_mul, List.map_singleton, List.sum_singleton, hg], fun j hj => ?_⟩
    rcases List.mem_append.1 hj with hj | hj
    · exact i2 j hj
    · simp only [one_mul, List.mem_singleton] at hj
      subst hj
      rw [hg]; exact not_le.1 he

theorem cstLog_spec {lg : K → K} {l2pi : K} {axis err : List K} (hax : axis.Pairwise (· < ·)) {r : Range K} {c : K} (h : cstLog lg l2pi axis err r = .ok c) :
    IsCst lg l2pi axis err r c := by
  unfold cstLog at h
  obtain ⟨ij, h1, h⟩ := Res.bind_eq_ok.1 h
  obtain ⟨s, h2, h⟩ := Res.bind_eq_ok.1 h
  cases h
  obtain ⟨c1, -⟩ := C03_closed r _ hax
  obtain ⟨c2, c3, c4⟩ := c1 ij.1 ij.2 h1
  obtain ⟨s1, s2⟩ := sumLog_spec _ _ h2
  refine ⟨List.range' ij.1 (ij.2 + 1 - ij.1), List.nodup_range', fun j => ?_, ?_, s2⟩
  · rw [List.mem_range'_1]
    constructor
    · rintro ⟨h3, h4⟩
      have hj : j < axis.length := by omega
      exact ⟨axis[j], List.getElem?_eq_getElem hj, (c4 j hj).1 ⟨h3, by omega⟩⟩
    · rintro ⟨x, hx, hm⟩
      obtain ⟨hj, rfl⟩ := List.getElem?_eq_some_iff.1 hx
      have := (c4 j hj).2 hm
      omega
  · rw [← s1, List.length_range']
    ring

/-- **C138** Whenever the operator returns, it has one result for each redshift, in increasing order of redshift, that is the fit at that redshift on the lambda range
clamped to the spectrum; the constant of the likelihood is the one of the same range. -/
theorem C138_compute {v : Env K} {lg : K → K} {l2pi : K} {lr : Range K} {thr : K} {masks : List (List Nat)} {zs : List K} {rs : List (K × Option K × Result K)} {c : K}
    (hax : v.axis.Pairwise (· < ·)) (h : compute v lg l2pi lr thr masks zs = .ok (rs, c)) :
    ∃ cr : Range K, (∀ x, cr.Mem x ↔ lr.Mem x ∧ Covered v.axis x) ∧ (rs.map Prod.fst).Pairwise (· ≤ ·) ∧ (rs.map Prod.fst).Perm zs ∧
      (∀ x ∈ rs, ∃ m, basicFit v cr thr m x.1 = .ok x.2) ∧ IsCst lg l2pi v.axis v.err cr c := by
  unfold compute at h
  split at h
  · cases h
  split at h
  · cases h
  split at h
  · cases h
  obtain ⟨cr, h1, h⟩ := Res.bind_eq_ok.1 h
  obtain ⟨rs', h2, h⟩ := Res.bind_eq_ok.1 h
  split at h
  · cases h
  obtain ⟨c', h3, h⟩ := Res.bind_eq_ok.1 h
  cases h
  obtain ⟨f1, f2⟩ := fits_spec _ _ h2
  obtain ⟨s1, s2, -⟩ := sorted_spec zs
  refine ⟨cr, (clamp_mem h1).2, by rw [f1]; exact s1, by rw [f1]; exact s2, fun x hx => ?_, cstLog_spec hax h3⟩
  have key : ∀ (ps : List (K × Nat)) (rs : List (K × Option K × Result K)),
      List.Forall₂ (fun p x => x.1 = p.1 ∧ ∃ m, (masks = [] ∧ m = List.replicate v.axis.length 1 ∨ masks ≠ [] ∧ masks[p.2]? = some m) ∧ basicFit v cr thr m p.1 = .ok x.2) ps rs →
      ∀ x ∈ rs, ∃ m, basicFit v cr thr m x.1 = .ok x.2 := by
    intro ps rs hf
    induction hf with
    | nil => intro x hx; simp at hx
    | cons q _ ih =>
      intro x hx
      rcases List.mem_cons.1 hx with rfl | hx
      · obtain ⟨q1, m, -, q2⟩ := q
        exact ⟨m, by rw [q1]; exact q2⟩
      · exact ih x hx
  exact key _ _ f2 x hx

theorem fits_congr {v : Env K} {lr : Range K} {thr : K} : ∀ (ps qs : List (K × Nat)), ps.map Prod.fst = qs.map Prod.fst → fits v lr thr [] ps = fits v lr thr [] qs := by
  intro ps
  induction ps with
  | nil => intro qs h; cases qs with
    | nil => rfl
    | cons q qs => simp at h
  | cons p ps ih =>
    intro qs h
    cases qs with
    | nil => simp at h
    | cons q qs =>
      simp only [List.map_cons, List.cons.injEq] at h
      unfold fits
      rw [ih qs h.2, h.1]
      rfl

/-- **C138** The outcome does not depend on the order of the redshifts (without additional masks, whose values are not used: `C137_mask_unused`). -/
theorem C138_order {v : Env K} {lg : K → K} {l2pi : K} {lr : Range K} {thr : K} {zs zs' : List K} (h : zs.Perm zs') :
    compute v lg l2pi lr thr [] zs = compute v lg l2pi lr thr [] zs' := by
  have hs : (sorted zs).map Prod.fst = (sorted zs').map Prod.fst := by
    obtain ⟨a1, a2, -⟩ := sorted_spec zs
    obtain ⟨b1, b2, -⟩ := sorted_spec zs'
    exact List.Perm.eq_of_pairwise (fun a b _ _ h1 h2 => le_antisymm h1 h2) a1 b1 (a2.trans (h.trans b2.symm))
  unfold compute
  have hn : (zs = []) ↔ (zs' = []) := by
    constructor
    · rintro rfl; exact h.nil_eq.symm
    · rintro rfl; exact h.symm.nil_eq.symm
  by_cases hz : zs = []
  · have := hn.1 hz
    subst hz; subst this
    rfl
  have hz' : zs' ≠ [] := fun hx => hz (hn.2 hx)
  simp only [if_neg hz, if_neg hz']
  split
  · rfl
  split
  · rfl
  simp only [List.length_nil, ne_eq, not_true_eq_false, and_false, if_false]
  congr 1
  funext cr
  rw [fits_congr _ _ hs]

/-- **C138** A list of masks of another size than the list of redshifts is refused; missing extinction objects too; and an empty list of redshifts is undefined behaviour. -/
theorem C138_refused {v : Env K} {lg : K → K} {l2pi : K} {lr : Range K} {thr : K} {masks : List (List Nat)} {zs : List K} (hne : v.tpls ≠ []) :
    (v.dust = true ∧ v.hasDust = false ∨ v.igm = true ∧ v.hasIgm = false → compute v lg l2pi lr thr masks zs = .throw .INTERNAL_ERROR) ∧
    (masks ≠ [] → masks.length ≠ zs.length → compute v lg l2pi lr thr masks zs = .throw .INTERNAL_ERROR) ∧
    (∀ cr, ¬ (v.dust = true ∧ v.hasDust = false ∨ v.igm = true ∧ v.hasIgm = false) → SAxis.clampLambdaRange v.axis lr = .ok cr → compute v lg l2pi lr thr [] [] = .ub) := by
  refine ⟨fun h => ?_, fun h1 h2 => ?_, fun cr h1 h2 => ?_⟩
  · unfold compute
    rw [if_pos ⟨hne, h⟩]
  · unfold compute
    by_cases h3 : v.tpls ≠ [] ∧ (v.dust = true ∧ v.hasDust = false ∨ v.igm = true ∧ v.hasIgm = false)
    · rw [if_pos h3]
    rw [if_neg h3, if_neg hne, if_pos ⟨h2, fun h => h1 (List.length_eq_zero_iff.1 h)⟩]
  · unfold compute
    rw [if_neg (fun h => h1 h.2), if_neg hne, if_neg (by simp), h2]
    rfl

-- The operator returns on the environment of the examples, for redshifts not in order.
example : (match compute { exEnv [0] with tpls := [([1 / 2, 1, 3 / 2, 2, 3, 4], [1, 1, 1, 2, 2, 2]), ([1 / 2, 1, 3 / 2, 2, 3, 4], [1, 2, 1, 2, 1, 2])] } id 0 ⟨1, 4⟩ (1 / 2) [] [1, 0] with
      | .ok p => p.1.map Prod.fst | _ => []) = [0, 1] := by decide +kernel

/-! ## C139 -/

/-- The dust curve of the E(B-V) value `ebmv`. -/
def dustOf (v : Env K) (ebmv w : K) : K :=
  if 0 < ebmv then (match v.ebmvIndex ebmv with | .ok k => if 0 ≤ k then val (v.c.dust k w) else 1 | _ => 1) else 1

/-- The curve of the IGM index `i` at redshift `z`. -/
def igmOf (v : Env K) (z : K) (i : Int) (w : K) : K :=
  if 0 ≤ i ∧ w ≤ v.c.igmMax then (match v.c.zIndex z with | some zi => val (v.c.igm zi i w) | none => 0) else 1

theorem modelSample_spec {fluxes : List (List K)} {amps ext : List K} {k : Nat} : ∀ (n : Nat) (s : K), modelSample fluxes amps ext k n = .ok s →
    s = (∑ c ∈ Finset.range n, amps.getD c 0 * (fluxes.getD c []).getD k 0) * ext.getD k 0 := by
  intro n
  induction n with
  | zero => intro s h; cases h; simp
  | succ n ih =>
    intro s h
    unfold modelSample at h
    obtain ⟨s0, h1, h⟩ := Res.bind_eq_ok.1 h
    obtain ⟨f, h2, h⟩ := Res.bind_eq_ok.1 h
    obtain ⟨a, h3, h⟩ := Res.bind_eq_ok.1 h
    obtain ⟨x, h4, h⟩ := Res.bind_eq_ok.1 h
    obtain ⟨e, h5, h⟩ := Res.bind_eq_ok.1 h
    cases h
    rw [Finset.sum_range_succ, add_mul, ← ih s0 h1]
    have g2 : fluxes.getD n [] = f := by rw [List.getD_eq_getElem?_getD, Res.at_eq_ok.1 h2]; rfl
    have g3 : amps.getD n 0 = a := by rw [List.getD_eq_getElem?_getD, Res.at_eq_ok.1 h3]; rfl
    have g4 : f.getD k 0 = x := by rw [List.getD_eq_getElem?_getD, Res.at_eq_ok.1 h4]; rfl
    have g5 : ext.getD k 0 = e := by rw [List.getD_eq_getElem?_getD, Res.at_eq_ok.1 h5]; rfl
    rw [g2, g3, g4, g5]

/-- The extinction curve of the model, in the range of the fit. -/
theorem extinction_spec {v : Env K} {rest : List K} {z : K} {ij : Nat × Nat} {ebmv : K} {igm : Int} {ext : List K} (hs : rest.Pairwise (· ≤ ·)) (h1 : ij.1 ≤ ij.2)
    (h2 : ij.2 < rest.length) (h : extinction v rest z ij ebmv igm = .ok ext) (k : Nat) (hk1 : ij.1 ≤ k) (hk2 : k ≤ ij.2) :
    ext[k]? = some (dustOf v ebmv (rest.getD k 0) * igmOf v z igm (rest.getD k 0)) := by
  set ones : List K := List.replicate rest.length 1 with hones
  set o : Obs K := ⟨rest, ones, ones, ones, List.replicate rest.length 1, ij.1, ij.2⟩ with ho
  set op : Opt K := ⟨v.c, z, v.ebmvValue, decide (0 < ebmv), decide (-1 < igm), false, 0, [], [], false, []⟩ with hop
  have hok : o.Ok := by
    refine ⟨hs, by simp [ho, hones], by simp [ho, hones], by simp [ho, hones], by simp [ho], h1, h2, ?_⟩
    intro j _ _ e he
    have := List.mem_of_getElem? he
    rw [List.eq_of_mem_replicate this]
    exact one_ne_zero
  unfold extinction at h
  simp only at h
  obtain ⟨t1, e1, h⟩ := Res.bind_eq_ok.1 h
  obtain ⟨t2, e2, h⟩ := Res.bind_eq_ok.1 h
  obtain ⟨t3, e3, h⟩ := Res.bind_eq_ok.1 h
  cases h
  let sl : Tpl.T K → Slot K := fun t => ⟨ones, ones, List.replicate rest.length 1, ij.1, ij.2, t, []⟩
  have r1 : Rel op v.hasDust v.hasIgm o (-1) (-1) (sl t1) := by
    by_cases hc : 0 < ebmv ∨ -1 < igm
    · rw [if_pos hc] at e1
      obtain ⟨u, g1, g2⟩ := Res.bind_eq_ok.1 e1
      cases g2
      have hi : initSlot op false false (o.slot v.hasDust v.hasIgm) =
          .ok ((), sl (Tpl.init v.c (Tpl.make rest ones v.hasDust v.hasIgm) ij.1 ij.2 z).1) := by
        unfold initSlot
        simp only [Obs.slot, ho, Bool.or_false]
        have : (Tpl.init op.c { Tpl.make rest ones v.hasDust v.hasIgm with } ij.1 ij.2 op.z).2 = .ok u := g1
        simp only [hop] at this ⊢
        rw [this]
        rfl
      have := initSlot_inv hok (by simp only [hop, decide_eq_true_eq]; exact hc) hi
      simpa using this
    · rw [if_neg hc] at e1
      cases e1
      have h0 := Tpl.inv_make op.c o.axis o.base v.hasDust v.hasIgm hok.base_len
      refine ⟨rfl, rfl, rfl, rfl, rfl, ?_, fun _ => rfl, fun _ => rfl, fun _ hx => by omega⟩
      rw [if_neg (by simp only [hop, decide_eq_true_eq]; exact hc)]
      exact h0
  have r2 : ∃ kd, Rel op v.hasDust v.hasIgm o kd (-1) (sl t2) ∧ ∀ w, dustFun op kd w = dustOf v ebmv w := by
    by_cases hd : 0 < ebmv ∧ v.hasDust = false
    · rw [if_pos hd] at e2; cases e2
    rw [if_neg hd] at e2
    by_cases hb : 0 < ebmv
    · rw [if_pos hb] at e2
      obtain ⟨kd, g1, g2⟩ := Res.bind_eq_ok.1 e2
      have hdust : op.dust = true := by simp [hop, hb]
      by_cases hk : kd ≠ -1
      · rw [if_pos hk] at g2
        obtain ⟨b, g3, g4⟩ := Res.bind_eq_ok.1 g2
        cases g4
        have hsl : dustSlot op kd (sl t1) = .ok (b, sl (Tpl.applyDust v.c t1 kd).1) := by
          unfold dustSlot
          simp only [sl, hop]
          rw [g3]; rfl
        refine ⟨kd, (r1.dustStep hok hdust hsl).1, fun w => ?_⟩
        unfold dustFun dustOf
        rw [if_pos hb, g1]
        simp only
        by_cases hk0 : 0 ≤ kd
        · rw [if_pos ⟨hdust, hk0⟩, if_pos hk0]
        · rw [if_neg (fun hx => hk0 hx.2), if_neg hk0]
      · rw [if_neg hk] at g2
        cases g2
        push Not at hk
        refine ⟨-1, r1, fun w => ?_⟩
        unfold dustFun dustOf
        rw [if_pos hb, g1, hk]
        simp
    · rw [if_neg hb] at e2
      cases e2
      refine ⟨-1, r1, fun w => ?_⟩
      unfold dustFun dustOf
      rw [if_neg hb]
      simp
  obtain ⟨kd, r2, hD⟩ := r2
  have r3 : ∃ i, Rel op v.hasDust v.hasIgm o kd i (sl t3) ∧ ∀ w, igmFun op i w = igmOf v z igm w := by
    by_cases hi : -1 < igm
    · rw [if_pos hi] at e3
      obtain ⟨b, g3, g4⟩ := Res.bind_eq_ok.1 e3
      cases g4
      have hig : op.igm = true := by simp [hop, hi]
      have hsl : igmSlot op igm (sl t2) = .ok (b, sl (Tpl.applyIgm v.c t2 igm).1) := by
        unfold igmSlot
        simp only [sl, hop]
        rw [g3]; rfl
      refine ⟨igm, (r2.igmStep hok hig hsl).1, fun w => ?_⟩
      unfold igmFun igmOf
      simp only [hig, true_and]
      rfl
    · rw [if_neg hi] at e3
      cases e3
      refine ⟨-1, r2, fun w => ?_⟩
      unfold igmFun igmOf
      rw [if_neg (by omega), if_neg (by omega)]
  obtain ⟨i, r3, hG⟩ := r3
  have := (r3.agree hok).2.2.2.2.2 k hk1 hk2
  have e5 : ones[k]? = some 1 := by rw [hones, List.getElem?_replicate, if_pos (by omega)]
  simp only [sl] at this
  rw [this]
  simp only [ho, e5, Option.getD_some, one_mul]
  rw [hD, hG, List.getD_eq_getElem?_getD]

/-- **C139** (partial: the wavelengths are wrong, see `C139_axis_counterexample`, and nothing is said of the samples out of the range of the fit.) Whenever the model is
computed, it has one flux for each sample of the spectrum, and at the samples of the range of the fit the flux is the sum of the rebinned templates with the given
amplitudes, times the dust curve and the IGM curve at the rest frame wavelength. -/
theorem C139_model_partial {v : Env K} {lr : Range K} {thr z ebmv : K} {igm : Int} {amps ax fl : List K} (hax : v.axis.Pairwise (· < ·))
    (h : spectrumModel v lr thr z ebmv igm amps = .ok (ax, fl)) :
    ∃ rb ij, rebinTemplates v.reb v.axis v.tpls z lr thr = .ok rb ∧ Range.closedIdx rb.range (restAxis v.axis z) = .ok ij ∧ fl.length = v.axis.length ∧
      ∀ k : Nat, ij.1 ≤ k → k ≤ ij.2 → fl[k]? = some ((∑ c ∈ Finset.range v.tpls.length, amps.getD c 0 * (rb.fluxes.getD c []).getD k 0) *
        dustOf v ebmv ((restAxis v.axis z).getD k 0) * igmOf v z igm ((restAxis v.axis z).getD k 0)) := by
  unfold spectrumModel at h
  obtain ⟨rb, h1, h⟩ := Res.bind_eq_ok.1 h
  split at h
  · cases h
  obtain ⟨ij, h2, h⟩ := Res.bind_eq_ok.1 h
  obtain ⟨ext, h3, h⟩ := Res.bind_eq_ok.1 h
  obtain ⟨fl', h4, h⟩ := Res.bind_eq_ok.1 h
  cases h
  have hp := (C133_range h1).1
  have hs := restAxis_sorted hp hax
  obtain ⟨c1, -⟩ := C03_closed rb.range _ hs
  obtain ⟨c2, c3, -⟩ := c1 ij.1 ij.2 h2
  have hlen : (restAxis v.axis z).length = v.axis.length := by simp [restAxis]
  refine ⟨rb, ij, h1, h2, Res.tab_length _ h4, fun k hk1 hk2 => ?_⟩
  obtain ⟨a, g1, g2⟩ := Res.tab_get _ h4 k (by omega)
  have he := extinction_spec (hs.imp le_of_lt) c2 c3 h3 k hk1 hk2
  rw [g1, modelSample_spec _ _ g2, List.getD_eq_getElem?_getD (l := ext), he, Option.getD_some, mul_assoc]

/-- **C139 counterexample** The wavelengths of the model are the ones of the spectrum multiplied again by `1 + z`: for every spectrum at positive wavelengths and every
positive redshift no wavelength of the model is the one of its sample. -/
theorem C139_axis_counterexample {v : Env K} {lr : Range K} {thr z ebmv : K} {igm : Int} {amps ax fl : List K} (hz : 0 < z) (hpos : ∀ x ∈ v.axis, 0 < x)
    (h : spectrumModel v lr thr z ebmv igm amps = .ok (ax, fl)) : ax.length = v.axis.length ∧ ∀ (k : Nat) (x : K), v.axis[k]? = some x → ∃ y, ax[k]? = some y ∧ y = x * (1 + z) ∧ x < y := by
  unfold spectrumModel at h
  obtain ⟨rb, h1, h⟩ := Res.bind_eq_ok.1 h
  split at h
  · cases h
  obtain ⟨ij, h2, h⟩ := Res.bind_eq_ok.1 h
  obtain ⟨ext, h3, h⟩ := Res.bind_eq_ok.1 h
  obtain ⟨fl', h4, h⟩ := Res.bind_eq_ok.1 h
  cases h
  refine ⟨by simp, fun k x hx => ⟨x * (1 + z), by rw [List.getElem?_map, hx]; rfl, rfl, ?_⟩⟩
  have := hpos x (List.mem_of_getElem? hx)
  nlinarith

/-- **C139** The model of a fit with one configuration gives the reported chi2: with the reported amplitudes, E(B-V) and IGM index, the chi2 of the model over the range of the fit
is the reported one. The index of an E(B-V) value must be the one it was fitted with, and a null or negative value must have no effect. -/
theorem C139_consistent {v : Env K} (hv : v.Ok) {lr : Range K} {thr z : K} (hz : 0 ≤ z) {mask : List Nat} {ov : Option K} {r : Result K} {k i : Int}
    (hk : v.ebmv = [k]) (hi : v.meiksin = [i]) (hdust : v.dust = true → 0 ≤ k)
    (hidx : v.dust = true → 0 < v.ebmvValue k → v.ebmvIndex (v.ebmvValue k) = .ok k) (hzero : v.dust = true → v.ebmvValue k ≤ 0 → ∀ w, val (v.c.dust k w) = 1)
    (h : basicFit v lr thr mask z = .ok (ov, r)) {q : Best K} (hq : r.best = some q) {l : Last K} (hl : r.last = some l) {ax fl : List K}
    (hm : spectrumModel v lr thr z q.ebmv q.igm l.amps = .ok (ax, fl)) :
    ∃ rb ij, rebinTemplates v.reb v.axis v.tpls z lr thr = .ok rb ∧ Range.closedIdx rb.range (restAxis v.axis z) = .ok ij ∧
      ((List.range' ij.1 (ij.2 + 1 - ij.1)).map fun j => ((v.flux.getD j 0 - fl.getD j 0) / v.err.getD j 0) ^ 2).sum = q.chi2 := by
  obtain ⟨rb, ij, h1, h2, h3, h4⟩ := C139_model_partial hv.axis hm
  obtain ⟨rb', ij', g1, -, g2, g3, g4, hT, k', i', l', l1, l2, l3, l4, l5⟩ := C134_fit hv hz h
  rw [h1] at g1
  cases g1
  have hp := (C133_range h1).1
  have hs := restAxis_sorted hp hv.axis
  obtain ⟨c1, -⟩ := C03_closed rb.range _ hs
  obtain ⟨c2, c3, c4⟩ := c1 ij.1 ij.2 h2
  have hlen : (restAxis v.axis z).length = v.axis.length := by simp [restAxis]
  -- both fits have the same samples
  have hij : ij' = ij := by
    have q1 := (g2 ij'.1 _ (List.getElem?_eq_getElem (by omega))).1 ⟨le_rfl, g3⟩
    have q2 := (g2 ij'.2 _ (List.getElem?_eq_getElem (by omega))).1 ⟨g3, le_rfl⟩
    have q3 := (c4 ij.1 (by omega)).1 ⟨le_rfl, c2⟩
    have q4 := (c4 ij.2 (by omega)).1 ⟨c2, le_rfl⟩
    have w1 := (c4 ij'.1 (by omega)).2 q1
    have w2 := (c4 ij'.2 (by omega)).2 q2
    have w3 := (g2 ij.1 _ (List.getElem?_eq_getElem (by omega))).2 q3
    have w4 := (g2 ij.2 _ (List.getElem?_eq_getElem (by omega))).2 q4
    exact Prod.ext (by omega) (by omega)
  subst hij
  have e1 : (v.op z).ebmv = v.ebmv := rfl
  have e2 : (v.op z).meiksin = v.meiksin := rfl
  rw [hk] at l1
  rw [hi] at l2
  simp only [List.getLast?_singleton, Option.some.injEq] at l1 l2
  subst l1; subst l2
  rw [hl] at l3
  cases l3
  set P := v.prob z rb.fluxes ij' with hP
  obtain ⟨a, b, k', i', e, q', b1, b2, b3, b4, b5, b6, b7, b8, -⟩ := hT.best
  rw [hq] at b4
  cases b4
  rw [e1, hk, List.getElem?_singleton] at b1
  rw [e2, hi, List.getElem?_singleton] at b2
  have ha : a = 0 := by by_contra hc; rw [if_neg hc] at b1; cases b1
  have hb : b = 0 := by by_contra hc; rw [if_neg hc] at b2; cases b2
  subst ha; subst hb
  rw [if_pos rfl] at b1 b2
  cases b1; cases b2
  obtain ⟨e', t1, ⟨amps, t2, t3⟩, -⟩ := hT.entries 0 0 k i (by rw [e1, hk]; rfl) (by rw [e2, hi]; rfl)
  rw [b3] at t1
  cases t1
  have hchi : q.chi2 = P.chi2 (dustFun (v.op z) k) (igmFun (v.op z) i) (fun c => l.amps.getD c 0) := by
    rw [b5, ← t3]
    exact le_antisymm (t2 _) (l5 _)
  refine ⟨rb, ij', h1, h2, ?_⟩
  rw [hchi]
  unfold Prob.chi2
  congr 1
  apply List.map_congr_left
  intro j hj
  rw [List.mem_range'_1] at hj
  have hfj := h4 j hj.1 (by omega)
  have hcount : v.tpls.length = rb.fluxes.length := (C133_range h1).2.1.length_eq
  have hfl : fl.getD j 0 = P.combo (dustFun (v.op z) k) (igmFun (v.op z) i) (fun c => l.amps.getD c 0) j := by
    rw [List.getD_eq_getElem?_getD, hfj, Option.getD_some, hcount]
    unfold Prob.combo
    have hd : dustOf v q.ebmv ((restAxis v.axis z).getD j 0) = dustFun (v.op z) k (P.rest.getD j 0) := by
      rw [b6]
      unfold coeffOf
      by_cases hdu : v.dust = true
      · have e3 : (v.op z).dust = true := hdu
        have hR : ∀ w, dustFun (v.op z) k w = val (v.c.dust k w) := by
          intro w
          unfold dustFun
          rw [if_pos ⟨e3, hdust hdu⟩]
          rfl
        rw [hR, if_pos e3]
        unfold dustOf
        have e4 : (v.op z).ebmvValue = v.ebmvValue := rfl
        rw [e4]
        by_cases hpp : 0 < v.ebmvValue k
        · rw [if_pos hpp, hidx hdu hpp]
          simp only
          rw [if_pos (hdust hdu)]
          rfl
        · rw [if_neg hpp]
          exact (hzero hdu (not_lt.1 hpp) _).symm
      · have e3 : (v.op z).dust = false := by simpa [Env.op] using hdu
        have hR : ∀ w, dustFun (v.op z) k w = 1 := by
          intro w
          unfold dustFun
          rw [if_neg (by rw [e3]; rintro ⟨h, -⟩; cases h)]
        rw [hR, if_neg (by rw [e3]; decide)]
        unfold dustOf
        norm_num
    have hg : igmOf v z q.igm ((restAxis v.axis z).getD j 0) = igmFun (v.op z) i (P.rest.getD j 0) := by
      by_cases hA : Affected (v.op z) P
      · rw [b7 hA]
        unfold igmOf igmFun
        simp only [hA.1, true_and]
        rfl
      · rw [b8 hA]
        rw [igm_unaffected (hs.imp le_of_lt) (by show ij'.1 + (ij'.2 + 1 - ij'.1) ≤ _; rw [show P.rest = restAxis v.axis z from rfl]; omega) hA i j (by exact hj.1) (by exact hj.2)]
        unfold igmOf
        rw [if_neg (by omega)]
    rw [hd, hg]
    rfl
  rw [hfl]
  rfl

-- The hypotheses of `C139_consistent` and of `C139_model_partial` hold for the environment of the examples, and the model is computed.
example : (match basicFit (exEnv [0]) ⟨1, 4⟩ (1 / 2) [1, 1, 1, 1] 0 with
    | .ok p => (match p.2.best, p.2.last with
      | some q, some l => (match spectrumModel (exEnv [0]) ⟨1, 4⟩ (1 / 2) 0 q.ebmv q.igm l.amps with | .ok m => decide (m.2 = [5, 8, 7, 10]) | _ => false)
      | _, _ => false)
    | _ => false) = true ∧ val ((exEnv [0]).c.dust 0 2) = 1 ∧ (exEnv [0]).ebmv = [0] ∧ (exEnv [0]).meiksin = [-1] := by decide +kernel

example : (match spectrumModel (exEnv [0]) ⟨1, 4⟩ (1 / 2) 0 (1 / 10) (-1) [2, 3] with | .ok m => decide (m.2 = [5, 8, 7, 10]) | _ => false) = true := by decide +kernel

end TplComb
end Amazed
