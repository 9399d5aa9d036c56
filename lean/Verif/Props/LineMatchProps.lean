import Verif.Model.LineMatch
import Verif.Props.LineCatProps

set_option linter.unusedSectionVars false
set_option linter.unusedVariables false

/-! # Matching of detected and catalogue lines (C123) -/

namespace Amazed
namespace LineMatch
open Amp (LType Force)
open LineCat (Line Cat)
open LineDetect (Det)

variable {K : Type} [Field K] [LinearOrder K] [IsStrictOrderedRing K]

/-! ## Specification -/

/-- A line at wavelength `x` is the catalogue line `r` at a redshift that is not negative and agrees with `z` within the tolerance. -/
def Agrees (tol z x : K) (r : Line K) : Prop :=
  0 ≤ (x - r.pos) / r.pos ∧ |z - (x - r.pos) / r.pos| ≤ tol * (1 + (z + (x - r.pos) / r.pos) / 2)

open Classical in
/-- The match `x` is part of the solution of the pair of the detected line `d` and the catalogue line `r`: either it is this pair,
or, provided there are several catalogue lines, it is the first detected line of its wavelength besides `d`, at another
wavelength than `d`, with the first catalogue line that agrees with the redshift of the pair. -/
def Part (tol : K) (det : List (ℤ × Det K)) (rest : Cat K) (d : ℤ × Det K) (r : ℤ × Line K) (x : Sol K) : Prop :=
  x.z = (x.det.pos - x.rest.pos) / x.rest.pos ∧
  ((x.det = d.2 ∧ x.restId = r.1 ∧ x.rest = r.2) ∨
    (rest.length ≠ 1 ∧ x.det.pos ≠ d.2.pos ∧
      (∃ i, det.find? (fun e => decide (e.1 ≠ d.1 ∧ e.2.pos = x.det.pos)) = some (i, x.det)) ∧
      rest.find? (fun e => decide (Agrees tol ((d.2.pos - r.2.pos) / r.2.pos) x.det.pos e.2)) = some (x.restId, x.rest)))

/-- `s` is the solution of the pair: all its matches, in the order of the wavelengths. -/
structure SetOf (tol : K) (det : List (ℤ × Det K)) (rest : Cat K) (d : ℤ × Det K) (r : ℤ × Line K) (s : List (Sol K)) : Prop where
  mem : ∀ x, x ∈ s ↔ Part tol det rest d r x
  sorted : s.Pairwise fun a b => a.det.pos < b.det.pos

/-- Two solutions are the same: the detected lines have the same wavelengths and amplitudes, and are matched with the same
catalogue lines at the same redshifts. -/
def Same (s t : List (Sol K)) : Prop :=
  List.Forall₂ (fun a b : Sol K => a.det.pos = b.det.pos ∧ a.det.amp = b.det.amp ∧ a.restId = b.restId ∧ a.z = b.z) s t

/-- The solution has enough lines and its mean redshift is strictly inside the range. -/
def Fits (lo hi : K) (n : ℤ) (s : List (Sol K)) : Prop :=
  0 ≤ n ∧ n ≤ s.length ∧ lo < (s.map (·.z)).sum / (s.length : K) ∧ (s.map (·.z)).sum / (s.length : K) < hi

/-- A sort of the matches. -/
structure Sorts (srt : List (Sol K) → List (Sol K)) : Prop where
  perm : ∀ l, (srt l).Perm l
  sorted : ∀ l, (srt l).Pairwise fun a b => a.det.pos < b.det.pos ∨ (a.det.pos = b.det.pos ∧ a.rest.pos ≤ b.rest.pos)

/-! ## One detected line -/

theorem agrees_iff (tol z : K) (d : Det K) (r : Line K) :
    (¬ zOf d r < 0 ∧ ¬ |z - zOf d r| > tol * (1 + (z + zOf d r) * (1 / 2))) ↔ Agrees tol z d.pos r := by
  unfold Agrees zOf
  have : (z + (d.pos - r.pos) / r.pos) * (1 / 2) = (z + (d.pos - r.pos) / r.pos) / 2 := by ring
  rw [this, not_lt, gt_iff_lt, not_lt]

theorem present_iff (d : Det K) (sol : List (Sol K)) : present d sol = true ↔ ∃ x ∈ sol, x.det.pos = d.pos := by
  unfold present
  rw [List.any_eq_true]
  simp

theorem tryAdd_present (tol z : K) (d : Det K) : ∀ (rest : Cat K) (sol : List (Sol K)), present d sol = true →
    rest.foldl (tryAdd tol z d) sol = sol
  | [], sol, _ => rfl
  | r :: rs, sol, h => by
    rw [List.foldl_cons]
    have : tryAdd tol z d sol r = sol := by
      unfold tryAdd
      rw [if_pos h]
      split <;> simp
    rw [this]
    exact tryAdd_present tol z d rs sol h

open Classical in
theorem tryAdd_fold (tol z : K) (d : Det K) : ∀ (rest : Cat K) (sol : List (Sol K)), present d sol = false →
    rest.foldl (tryAdd tol z d) sol =
      match rest.find? (fun e => decide (Agrees tol z d.pos e.2)) with
      | none => sol
      | some r => sol ++ [⟨d, r.1, r.2, (d.pos - r.2.pos) / r.2.pos⟩]
  | [], sol, _ => rfl
  | r :: rs, sol, h => by
    rw [List.foldl_cons, List.find?_cons]
    by_cases ha : Agrees tol z d.pos r.2
    · obtain ⟨h1, h2⟩ := (agrees_iff tol z d r.2).2 ha
      have e : tryAdd tol z d sol r = sol ++ [⟨d, r.1, r.2, (d.pos - r.2.pos) / r.2.pos⟩] := by
        unfold tryAdd
        rw [if_neg h1, if_neg h2, if_neg (by simp [h])]
        rfl
      rw [e, decide_eq_true ha]
      simp only []
      apply tryAdd_present
      rw [present_iff]
      exact ⟨⟨d, r.1, r.2, (d.pos - r.2.pos) / r.2.pos⟩, by simp, rfl⟩
    · have e : tryAdd tol z d sol r = sol := by
        unfold tryAdd
        by_cases h1 : zOf d r.2 < 0
        · rw [if_pos h1]
        · rw [if_neg h1, if_pos]
          by_contra h2
          exact ha ((agrees_iff tol z d r.2).1 ⟨h1, h2⟩)
      rw [e, decide_eq_false ha]
      simp only []
      exact tryAdd_fold tol z d rs sol h

/-! ## One pair -/

open Classical in
/-- The matches after the detected lines `pre`. -/
def Partial (tol : K) (pre : List (ℤ × Det K)) (rest : Cat K) (d : ℤ × Det K) (r : ℤ × Line K) (x : Sol K) : Prop :=
  x.z = (x.det.pos - x.rest.pos) / x.rest.pos ∧
  ((x.det = d.2 ∧ x.restId = r.1 ∧ x.rest = r.2) ∨
    (x.det.pos ≠ d.2.pos ∧
      (∃ i, pre.find? (fun e => decide (e.1 ≠ d.1 ∧ e.2.pos = x.det.pos)) = some (i, x.det)) ∧
      rest.find? (fun e => decide (Agrees tol ((d.2.pos - r.2.pos) / r.2.pos) x.det.pos e.2)) = some (x.restId, x.rest)))

theorem find_append_some {α : Type} {p : α → Bool} {l m : List α} {a : α} (h : l.find? p = some a) : (l ++ m).find? p = some a := by
  rw [List.find?_append, h]; rfl

open Classical in
theorem update_step (tol : K) (rest : Cat K) (d : ℤ × Det K) (r : ℤ × Line K) (pre : List (ℤ × Det K)) (e : ℤ × Det K)
    (sol : List (Sol K)) (hm : ∀ x, x ∈ sol ↔ Partial tol pre rest d r x) (hn : (sol.map fun x => x.det.pos).Nodup) :
    (∀ x, x ∈ updateStep d.1 tol ((d.2.pos - r.2.pos) / r.2.pos) rest sol e ↔ Partial tol (pre ++ [e]) rest d r x) ∧
      ((updateStep d.1 tol ((d.2.pos - r.2.pos) / r.2.pos) rest sol e).map fun x => x.det.pos).Nodup := by
  have hfind : ∀ y : K, (pre ++ [e]).find? (fun e => decide (e.1 ≠ d.1 ∧ e.2.pos = y)) =
      (pre.find? (fun e => decide (e.1 ≠ d.1 ∧ e.2.pos = y))).or (if e.1 ≠ d.1 ∧ e.2.pos = y then some e else none) := by
    intro y
    rw [List.find?_append]
    congr 1
    by_cases hc : e.1 ≠ d.1 ∧ e.2.pos = y
    · rw [if_pos hc]; simp [hc.1, hc.2]
    · rw [if_neg hc, List.find?_cons, decide_eq_false hc]; rfl
  -- when the new line adds nothing
  have hsame : (¬ (e.1 ≠ d.1 ∧ e.2.pos ≠ d.2.pos ∧ (pre.find? (fun x => decide (x.1 ≠ d.1 ∧ x.2.pos = e.2.pos)) = none) ∧
      (rest.find? (fun x => decide (Agrees tol ((d.2.pos - r.2.pos) / r.2.pos) e.2.pos x.2))) ≠ none)) →
      ∀ x, Partial tol pre rest d r x ↔ Partial tol (pre ++ [e]) rest d r x := by
    intro hc x
    unfold Partial
    refine and_congr_right fun hz => or_congr_right ?_
    constructor
    · rintro ⟨h1, ⟨i, h2⟩, h3⟩
      exact ⟨h1, ⟨i, find_append_some h2⟩, h3⟩
    · rintro ⟨h1, ⟨i, h2⟩, h3⟩
      refine ⟨h1, ?_, h3⟩
      rw [hfind] at h2
      cases hp : pre.find? (fun e => decide (e.1 ≠ d.1 ∧ e.2.pos = x.det.pos)) with
      | some a =>
        rw [hp] at h2
        exact ⟨i, h2⟩
      | none =>
        exfalso
        rw [hp, Option.none_or] at h2
        by_cases he : e.1 ≠ d.1 ∧ e.2.pos = x.det.pos
        · rw [if_pos he] at h2
          apply hc
          refine ⟨he.1, he.2 ▸ h1, by rw [he.2]; exact hp, ?_⟩
          rw [he.2, h3]
          simp
        · rw [if_neg he] at h2
          simp at h2
  unfold updateStep
  by_cases hi : d.1 = e.1
  · rw [if_pos hi]
    refine ⟨fun x => ?_, hn⟩
    rw [hm x]
    exact hsame (fun h => h.1 hi.symm) x
  rw [if_neg hi]
  by_cases hpres : present e.2 sol = true
  · rw [tryAdd_present _ _ _ _ _ hpres]
    refine ⟨fun x => ?_, hn⟩
    rw [hm x]
    apply hsame
    rintro ⟨g1, g2, g3, g4⟩
    obtain ⟨y, hy, hyp⟩ := (present_iff _ _).1 hpres
    rw [hm y] at hy
    obtain ⟨_, ⟨h1, _⟩ | ⟨h1, ⟨i, h2⟩, _⟩⟩ := hy
    · apply g2
      rw [← hyp, h1]
    · rw [hyp, g3] at h2
      simp at h2
  · have hpres' : present e.2 sol = false := by simpa using hpres
    have hno : ∀ x ∈ sol, x.det.pos ≠ e.2.pos := by
      intro x hx hc
      exact hpres ((present_iff _ _).2 ⟨x, hx, hc⟩)
    rw [tryAdd_fold _ _ _ _ _ hpres']
    cases hf : rest.find? (fun x => decide (Agrees tol ((d.2.pos - r.2.pos) / r.2.pos) e.2.pos x.2)) with
    | none =>
      refine ⟨fun x => ?_, hn⟩
      rw [hm x]
      exact hsame (fun h => h.2.2.2 hf) x
    | some q =>
      simp only []
      have hpos : e.2.pos ≠ d.2.pos := by
        intro hc
        have : (⟨d.2, r.1, r.2, (d.2.pos - r.2.pos) / r.2.pos⟩ : Sol K) ∈ sol := (hm _).2 ⟨rfl, Or.inl ⟨rfl, rfl, rfl⟩⟩
        exact hno _ this hc.symm
      have hpre : pre.find? (fun x => decide (x.1 ≠ d.1 ∧ x.2.pos = e.2.pos)) = none := by
        cases hp : pre.find? (fun x => decide (x.1 ≠ d.1 ∧ x.2.pos = e.2.pos)) with
        | none => rfl
        | some a =>
          exfalso
          have ha := List.find?_some hp
          rw [decide_eq_true_eq] at ha
          have hmem : (⟨a.2, q.1, q.2, (a.2.pos - q.2.pos) / q.2.pos⟩ : Sol K) ∈ sol := by
            rw [hm]
            refine ⟨rfl, Or.inr ⟨by rw [ha.2]; exact hpos, ⟨a.1, ?_⟩, ?_⟩⟩
            · simp only [ha.2]; exact hp
            · simp only [ha.2]; exact hf
          exact hno _ hmem ha.2
      constructor
      · intro x
        rw [List.mem_append, List.mem_singleton, hm x]
        unfold Partial
        constructor
        · rintro (⟨h0, h1 | ⟨h1, ⟨i, h2⟩, h3⟩⟩ | rfl)
          · exact ⟨h0, Or.inl h1⟩
          · exact ⟨h0, Or.inr ⟨h1, ⟨i, find_append_some h2⟩, h3⟩⟩
          · refine ⟨rfl, Or.inr ⟨hpos, ⟨e.1, ?_⟩, hf⟩⟩
            rw [hfind]
            simp only []
            rw [hpre, if_pos ⟨fun h => hi h.symm, trivial⟩]
            rfl
        · rintro ⟨h0, h1 | ⟨h1, ⟨i, h2⟩, h3⟩⟩
          · exact Or.inl ⟨h0, Or.inl h1⟩
          · rw [hfind] at h2
            cases hp : pre.find? (fun e => decide (e.1 ≠ d.1 ∧ e.2.pos = x.det.pos)) with
            | some a =>
              rw [hp] at h2
              left
              refine ⟨h0, Or.inr ⟨h1, ⟨i, ?_⟩, h3⟩⟩
              exact h2
            | none =>
              right
              rw [hp, Option.none_or] at h2
              by_cases he : e.1 ≠ d.1 ∧ e.2.pos = x.det.pos
              · rw [if_pos he] at h2
                have hx : x.det = e.2 := by
                  have := congrArg Prod.snd (Option.some.inj h2)
                  exact this.symm
                rw [hx, hf] at h3
                have hq := Option.some.inj h3
                obtain ⟨xd, xi, xr, xz⟩ := x
                simp only at hx h0 hq
                subst hx
                subst hq
                subst h0
                rfl
              · rw [if_neg he] at h2
                simp at h2
      · rw [List.map_append, List.nodup_append]
        refine ⟨hn, by simp, ?_⟩
        intro a ha b hb
        rw [List.mem_map] at ha
        obtain ⟨x, hx, rfl⟩ := ha
        simp only [List.map_cons, List.map_nil, List.mem_singleton] at hb
        subst hb
        exact hno x hx

theorem update_ok (tol : K) (rest : Cat K) (d : ℤ × Det K) (r : ℤ × Line K) : ∀ (post pre : List (ℤ × Det K)) (sol : List (Sol K)),
    (∀ x, x ∈ sol ↔ Partial tol pre rest d r x) → (sol.map fun x => x.det.pos).Nodup →
    (∀ x, x ∈ update d.1 tol ((d.2.pos - r.2.pos) / r.2.pos) post rest sol ↔ Partial tol (pre ++ post) rest d r x) ∧
      ((update d.1 tol ((d.2.pos - r.2.pos) / r.2.pos) post rest sol).map fun x => x.det.pos).Nodup
  | [], pre, sol, hm, hn => by simpa [update] using ⟨hm, hn⟩
  | e :: es, pre, sol, hm, hn => by
    obtain ⟨h1, h2⟩ := update_step tol rest d r pre e sol hm hn
    have := update_ok tol rest d r es (pre ++ [e]) _ h1 h2
    unfold update at this ⊢
    rw [List.foldl_cons]
    simpa using this

theorem pairSol_ok (tol : K) (det : List (ℤ × Det K)) (rest : Cat K) (d : ℤ × Det K) (r : ℤ × Line K) :
    (pairSol tol det rest d r = none ∧ (d.2.pos - r.2.pos) / r.2.pos < 0) ∨
    ∃ s, pairSol tol det rest d r = some s ∧ 0 ≤ (d.2.pos - r.2.pos) / r.2.pos ∧ (∀ x, x ∈ s ↔ Part tol det rest d r x) ∧
      (s.map fun x => x.det.pos).Nodup := by
  unfold pairSol
  by_cases hz : zOf d.2 r.2 < 0
  · rw [if_pos hz]
    exact Or.inl ⟨rfl, hz⟩
  rw [if_neg hz]
  right
  by_cases h1 : rest.length = 1
  · rw [if_pos h1]
    refine ⟨_, rfl, not_lt.1 hz, ?_, by simp⟩
    intro x
    rw [List.mem_singleton]
    unfold Part
    constructor
    · rintro rfl
      exact ⟨rfl, Or.inl ⟨rfl, rfl, rfl⟩⟩
    · rintro ⟨h2, ⟨a, b, c⟩ | ⟨hc, _⟩⟩
      · obtain ⟨xd, xi, xr, xz⟩ := x
        simp only at a b c h2
        subst a; subst b; subst c; subst h2
        rfl
      · exact absurd h1 hc
  · rw [if_neg h1]
    have h0 : ∀ x, x ∈ ([⟨d.2, r.1, r.2, zOf d.2 r.2⟩] : List (Sol K)) ↔ Partial tol [] rest d r x := by
      intro x
      rw [List.mem_singleton]
      unfold Partial
      constructor
      · rintro rfl
        exact ⟨rfl, Or.inl ⟨rfl, rfl, rfl⟩⟩
      · rintro ⟨h2, ⟨a, b, c⟩ | ⟨_, ⟨i, hc⟩, _⟩⟩
        · obtain ⟨xd, xi, xr, xz⟩ := x
          simp only at a b c h2
          subst a; subst b; subst c; subst h2
          rfl
        · simp at hc
    obtain ⟨h2, h3⟩ := update_ok tol rest d r det [] _ h0 (by simp)
    refine ⟨_, rfl, not_lt.1 hz, ?_, h3⟩
    intro x
    rw [show zOf d.2 r.2 = (d.2.pos - r.2.pos) / r.2.pos from rfl] at *
    rw [h2 x]
    unfold Partial Part
    simp [h1]

/-! ## Sorting -/

theorem sorts_strict {srt : List (Sol K) → List (Sol K)} (h : Sorts srt) {s : List (Sol K)} (hn : (s.map fun x => x.det.pos).Nodup) :
    (srt s).Pairwise fun a b => a.det.pos < b.det.pos := by
  have hn' : ((srt s).map fun x => x.det.pos).Nodup := ((h.perm s).map _).nodup_iff.2 hn
  rw [List.Nodup, List.pairwise_map] at hn'
  exact ((h.sorted s).and hn').imp (fun hab => by
    rcases hab.1 with h1 | h1
    · exact h1
    · exact absurd h1.1 hab.2)

theorem setOf_unique {tol : K} {det : List (ℤ × Det K)} {rest : Cat K} {d : ℤ × Det K} {r : ℤ × Line K} {s t : List (Sol K)}
    (hs : SetOf tol det rest d r s) (ht : SetOf tol det rest d r t) : s = t := by
  have hns : s.Nodup := hs.sorted.imp (fun h e => by rw [e] at h; exact lt_irrefl _ h)
  have hnt : t.Nodup := ht.sorted.imp (fun h e => by rw [e] at h; exact lt_irrefl _ h)
  have hp : s.Perm t := by
    rw [List.perm_ext_iff_of_nodup hns hnt]
    intro x
    rw [hs.mem, ht.mem]
  refine List.Perm.eq_of_pairwise ?_ hs.sorted ht.sorted hp
  intro a b _ _ h1 h2
  exact absurd (lt_trans h1 h2) (lt_irrefl _)

theorem sameSets_iff : ∀ s t : List (Sol K), sameSets s t = true ↔ Same s t
  | [], [] => by simp [sameSets, Same]
  | [], _ :: _ => by simp [sameSets, Same]
  | _ :: _, [] => by simp [sameSets, Same]
  | a :: s, b :: t => by
    have ih := sameSets_iff s t
    unfold sameSets
    unfold Same at ih ⊢
    rw [Bool.and_eq_true, ih, List.forall₂_cons]
    unfold sameDet
    simp [and_assoc]

theorem same_refl (s : List (Sol K)) : Same s s := List.forall₂_same.2 fun _ _ => ⟨rfl, rfl, rfl, rfl⟩

/-! ## The refinement -/

theorem refine_ok (srt : List (Sol K) → List (Sol K)) (hsrt : Sorts srt) (lo hi : K) (n : ℤ) : ∀ (post pre : List (List (Sol K))) (acc : List (List (Sol K))),
    (∀ t ∈ acc, ∃ s ∈ pre, t = srt s ∧ Fits lo hi n t) → (∀ s ∈ pre, Fits lo hi n (srt s) → ∃ t ∈ acc, Same t (srt s)) →
    acc.Pairwise (fun a b => ¬ Same a b) →
    (∀ t ∈ post.foldl (refineStep srt lo hi n) acc, ∃ s ∈ pre ++ post, t = srt s ∧ Fits lo hi n t) ∧
    (∀ s ∈ pre ++ post, Fits lo hi n (srt s) → ∃ t ∈ post.foldl (refineStep srt lo hi n) acc, Same t (srt s)) ∧
    (post.foldl (refineStep srt lo hi n) acc).Pairwise (fun a b => ¬ Same a b)
  | [], pre, acc, h1, h2, h3 => by simpa using ⟨h1, h2, h3⟩
  | s :: post, pre, acc, h1, h2, h3 => by
    have hlen : (srt s).length = s.length := (hsrt.perm s).length_eq
    have key : (∀ t ∈ refineStep srt lo hi n acc s, ∃ s' ∈ pre ++ [s], t = srt s' ∧ Fits lo hi n t) ∧
        (∀ s' ∈ pre ++ [s], Fits lo hi n (srt s') → ∃ t ∈ refineStep srt lo hi n acc s, Same t (srt s')) ∧
        (refineStep srt lo hi n acc s).Pairwise (fun a b => ¬ Same a b) := by
      have hold : ∀ t ∈ acc, ∃ s' ∈ pre ++ [s], t = srt s' ∧ Fits lo hi n t := by
        intro t ht
        obtain ⟨s', a, b⟩ := h1 t ht
        exact ⟨s', by simp [a], b⟩
      unfold refineStep
      by_cases c1 : n < 0 ∨ (s.length : ℤ) < n
      · rw [if_pos c1]
        refine ⟨hold, ?_, h3⟩
        intro s' hs' hf
        rw [List.mem_append, List.mem_singleton] at hs'
        rcases hs' with hs' | rfl
        · exact h2 s' hs' hf
        · exfalso
          obtain ⟨f1, f2, _⟩ := hf
          rw [hlen] at f2
          omega
      rw [if_neg c1]
      by_cases c2 : (acc.any fun t => sameSets t (srt s)) = true
      · rw [if_pos c2]
        refine ⟨hold, ?_, h3⟩
        intro s' hs' hf
        rw [List.mem_append, List.mem_singleton] at hs'
        rcases hs' with hs' | rfl
        · exact h2 s' hs' hf
        · obtain ⟨t, ht, e⟩ := List.any_eq_true.1 c2
          exact ⟨t, ht, (sameSets_iff _ _).1 e⟩
      rw [if_neg c2]
      by_cases c3 : lo < mean (srt s) ∧ mean (srt s) < hi
      · rw [if_pos c3]
        refine ⟨?_, ?_, ?_⟩
        · intro t ht
          rw [List.mem_append, List.mem_singleton] at ht
          rcases ht with ht | rfl
          · exact hold t ht
          · exact ⟨s, by simp, rfl, by omega, by omega, c3.1, c3.2⟩
        · intro s' hs' hf
          rw [List.mem_append, List.mem_singleton] at hs'
          rcases hs' with hs' | rfl
          · obtain ⟨t, a, b⟩ := h2 s' hs' hf
            exact ⟨t, by simp [a], b⟩
          · exact ⟨srt s', by simp, same_refl _⟩
        · rw [List.pairwise_append]
          refine ⟨h3, by simp, ?_⟩
          intro a ha b hb
          rw [List.mem_singleton] at hb
          subst hb
          intro hc
          exact c2 (List.any_eq_true.2 ⟨a, ha, (sameSets_iff _ _).2 hc⟩)
      · rw [if_neg c3]
        refine ⟨hold, ?_, h3⟩
        intro s' hs' hf
        rw [List.mem_append, List.mem_singleton] at hs'
        rcases hs' with hs' | rfl
        · exact h2 s' hs' hf
        · exact absurd ⟨hf.2.2.1, hf.2.2.2⟩ c3
    have := refine_ok srt hsrt lo hi n post (pre ++ [s]) _ key.1 key.2.1 key.2.2
    rw [List.foldl_cons]
    simpa using this

/-! ## C123 -/

theorem mem_pairs (tol : K) (det : List (ℤ × Det K)) (rest : Cat K) (s : List (Sol K)) :
    s ∈ pairs tol det rest ↔ ∃ d ∈ det, ∃ r ∈ rest, pairSol tol det rest d r = some s := by
  unfold pairs
  simp only [List.mem_flatMap, List.mem_filterMap]

/-- The detected lines and the catalogue lines that the filters keep. -/
def keptDet (t : LType) (f : Force) (c : List (ℤ × Det K)) : List (ℤ × Det K) :=
  c.filter fun x => (decide (t = .all) || decide (t = x.2.type)) && (decide (f = .all) || decide (f = x.2.force))

/-- The catalogue lines that the filters keep. -/
def keptRest (t : LType) (f : Force) (c : Cat K) : Cat K :=
  c.filter fun x => (decide (t = .all) || decide (t = x.2.type)) && (decide (f = .all) || decide (f = x.2.force))

/-- **C123** The solutions of the line matching: each is that of a pair of a detected and a catalogue line, not blueshifted, has
enough lines and a mean redshift in the range; no two are the same; and every pair whose solution has enough lines and a mean
redshift in the range is represented. A null pointer is returned exactly when there is none. -/
theorem C123_match (srt : List (Sol K) → List (Sol K)) (hsrt : Sorts srt) (det : List (ℤ × Det K)) (rest : Cat K) (lo hi : K) (n : ℤ) (tol : K)
    (t : LType) (fd fr : Force) (hrest : LineCat.Ok rest) (hpos : ∀ r ∈ rest, r.2.pos ≠ 0) :
    ∃ sets : List (List (Sol K)), compute srt det rest lo hi n tol t fd fr = .ok (if sets = [] then none else some sets) ∧
      (∀ s ∈ sets, Fits lo hi n s ∧ ∃ d ∈ keptDet t fd det, ∃ r ∈ keptRest t fr rest, 0 ≤ (d.2.pos - r.2.pos) / r.2.pos ∧
        SetOf tol (keptDet t fd det) (keptRest t fr rest) d r s) ∧
      (∀ d ∈ keptDet t fd det, ∀ r ∈ keptRest t fr rest, 0 ≤ (d.2.pos - r.2.pos) / r.2.pos →
        ∃ s, SetOf tol (keptDet t fd det) (keptRest t fr rest) d r s ∧ (Fits lo hi n s → ∃ s' ∈ sets, Same s' s)) ∧
      sets.Pairwise (fun a b => ¬ Same a b) := by
  have hr : LineCat.filtered t fr rest = keptRest t fr rest := (LineCat.C78_filtered t fr rest hrest).1
  have hd : filteredDet t fd det = keptDet t fd det := rfl
  unfold compute
  rw [hr, hd]
  set D := keptDet t fd det
  set R := keptRest t fr rest with hR
  have hno : ¬ (D.length ≠ 0 ∧ (R.any fun r => decide (r.2.pos = 0)) = true) := by
    rintro ⟨_, h⟩
    obtain ⟨r, h1, h2⟩ := List.any_eq_true.1 h
    rw [hR] at h1
    exact hpos r (List.mem_filter.1 h1).1 (by simpa using h2)
  rw [if_neg hno]
  obtain ⟨h1, h2, h3⟩ := refine_ok srt hsrt lo hi n (pairs tol D R) [] [] (by simp) (by simp) List.Pairwise.nil
  rw [List.nil_append] at h1 h2
  refine ⟨refine srt lo hi n (pairs tol D R), ?_, ?_, ?_, h3⟩
  · simp only []
    congr 1
    by_cases he : refine srt lo hi n (pairs tol D R) = []
    · rw [he]; simp
    · rw [if_neg (fun h => he (List.length_eq_zero_iff.1 h)), if_neg he]
  · intro s hs
    obtain ⟨s0, hs0, rfl, hf⟩ := h1 s hs
    refine ⟨hf, ?_⟩
    obtain ⟨d, hd', r, hr', hp⟩ := (mem_pairs tol D R s0).1 hs0
    rcases pairSol_ok tol D R d r with ⟨hc, _⟩ | ⟨s1, e1, hz, hm, hnd⟩
    · rw [hc] at hp; simp at hp
    · rw [e1] at hp
      cases hp
      refine ⟨d, hd', r, hr', hz, ⟨fun x => ?_, sorts_strict hsrt hnd⟩⟩
      rw [(hsrt.perm _).mem_iff]
      exact hm x
  · intro d hd' r hr' hz
    rcases pairSol_ok tol D R d r with ⟨_, hc⟩ | ⟨s1, e1, _, hm, hnd⟩
    · exact absurd hz (not_le.2 hc)
    · refine ⟨srt s1, ⟨fun x => ?_, sorts_strict hsrt hnd⟩, ?_⟩
      · rw [(hsrt.perm _).mem_iff]
        exact hm x
      · intro hf
        exact h2 s1 ((mem_pairs tol D R s1).2 ⟨d, hd', r, hr', e1⟩) hf

/-- **C123** Nothing but the sort of the library is left free: two executions give the same solutions whatever the sort. -/
theorem C123_sort (srt srt' : List (Sol K) → List (Sol K)) (h : Sorts srt) (h' : Sorts srt') (det : List (ℤ × Det K)) (rest : Cat K)
    (lo hi : K) (n : ℤ) (tol : K) (t : LType) (fd fr : Force) :
    compute srt det rest lo hi n tol t fd fr = compute srt' det rest lo hi n tol t fd fr := by
  have key : ∀ s ∈ pairs tol (filteredDet t fd det) (LineCat.filtered t fr rest), srt s = srt' s := by
    intro s hs
    obtain ⟨d, _, r, _, hp⟩ := (mem_pairs _ _ _ s).1 hs
    rcases pairSol_ok tol (filteredDet t fd det) (LineCat.filtered t fr rest) d r with ⟨hc, _⟩ | ⟨s1, e1, _, hm, hnd⟩
    · rw [hc] at hp; simp at hp
    · rw [e1] at hp
      cases hp
      refine List.Perm.eq_of_pairwise ?_ (sorts_strict h hnd) (sorts_strict h' hnd) ((h.perm _).trans (h'.perm _).symm)
      intro a b _ _ h1 h2
      exact absurd (lt_trans h1 h2) (lt_irrefl _)
  have hfold : ∀ (l : List (List (Sol K))) acc, (∀ s ∈ l, srt s = srt' s) →
      l.foldl (refineStep srt lo hi n) acc = l.foldl (refineStep srt' lo hi n) acc := by
    intro l
    induction l with
    | nil => intro acc _; rfl
    | cons s l ih =>
      intro acc hl
      rw [List.foldl_cons, List.foldl_cons]
      have : refineStep srt lo hi n acc s = refineStep srt' lo hi n acc s := by
        unfold refineStep
        rw [hl s (by simp)]
      rw [this]
      exact ih _ (fun x hx => hl x (by simp [hx]))
  unfold compute refine
  rw [hfold _ _ key]

/-- **C123** With a negative threshold on the number of lines, every solution is refused. -/
theorem C123_negative_threshold (srt : List (Sol K) → List (Sol K)) (hsrt : Sorts srt) (det : List (ℤ × Det K)) (rest : Cat K) (lo hi : K) (n : ℤ) (tol : K)
    (t : LType) (fd fr : Force) (hrest : LineCat.Ok rest) (hpos : ∀ r ∈ rest, r.2.pos ≠ 0) (hn : n < 0) :
    compute srt det rest lo hi n tol t fd fr = .ok none := by
  obtain ⟨sets, h1, h2, _⟩ := C123_match srt hsrt det rest lo hi n tol t fd fr hrest hpos
  have : sets = [] := by
    rw [List.eq_nil_iff_forall_not_mem]
    intro s hs
    have := (h2 s hs).1.1
    omega
  rw [h1, if_pos this]

/-! ## Example -/

/-- A sort that reduces. -/
def exSort (l : List (Sol ℚ)) : List (Sol ℚ) :=
  l.insertionSort fun a b => a.det.pos < b.det.pos ∨ (a.det.pos = b.det.pos ∧ a.rest.pos ≤ b.rest.pos)

theorem exSort_sorts : Sorts exSort := by
  refine ⟨fun l => List.perm_insertionSort _ l, fun l => ?_⟩
  have : Std.Total (fun a b : Sol ℚ => a.det.pos < b.det.pos ∨ (a.det.pos = b.det.pos ∧ a.rest.pos ≤ b.rest.pos)) := ⟨by
    intro a b
    rcases lt_trichotomy a.det.pos b.det.pos with h | h | h
    · exact Or.inl (Or.inl h)
    · rcases le_total a.rest.pos b.rest.pos with h' | h'
      · exact Or.inl (Or.inr ⟨h, h'⟩)
      · exact Or.inr (Or.inr ⟨h.symm, h'⟩)
    · exact Or.inr (Or.inl h)⟩
  have : IsTrans (Sol ℚ) (fun a b : Sol ℚ => a.det.pos < b.det.pos ∨ (a.det.pos = b.det.pos ∧ a.rest.pos ≤ b.rest.pos)) := ⟨by
    rintro a b c (h1 | ⟨h1, h2⟩) (h3 | ⟨h3, h4⟩)
    · exact Or.inl (h1.trans h3)
    · exact Or.inl (h3 ▸ h1)
    · exact Or.inl (h1 ▸ h3)
    · exact Or.inr ⟨h1.trans h3, h2.trans h4⟩⟩
  exact List.pairwise_insertionSort _ l

/-- Detected lines. -/
def exDet : List (ℤ × Det ℚ) :=
  [(0, ⟨"a", 20, .emission, .strong, 1, 1, .num 1, 1, 1, 1⟩), (1, ⟨"b", 40, .emission, .strong, 1, 1, .num 1, 1, 1, 1⟩),
   (2, ⟨"c", 70, .emission, .strong, 1, 1, .num 1, 1, 1, 1⟩)]

/-- A catalogue of two lines. -/
def exCat : Cat ℚ :=
  [(0, ⟨0, "x", "x", "g", "v", .emission, .strong, 10, 1⟩), (1, ⟨1, "y", "y", "g", "v", .emission, .strong, 20, 1⟩)]

/-- The lines at 20 and 40 match the two catalogue lines at redshift 1: this solution is found from either of them, and kept once.
Other pairs give solutions of one line, below the threshold 2. -/
example : (compute exSort exDet exCat 0 10 2 (1 / 100) .all .all .all >>= fun o =>
      .ok (o.map fun l => l.map fun s => s.map fun x => (x.det.pos, x.restId, x.z))) =
    (.ok (some [[(20, 0, 1), (40, 1, 1)]]) : Res (Option (List (List (ℚ × ℤ × ℚ))))) := by decide +kernel

/-- The hypotheses of C123. -/
example : LineCat.Ok exCat ∧ (∀ r ∈ exCat, r.2.pos ≠ 0) ∧ Sorts exSort := by
  refine ⟨?_, ?_, exSort_sorts⟩
  · refine ⟨?_, ?_⟩
    · unfold LineCat.Keyed exCat
      simp
    · intro x hx
      simp only [exCat, List.mem_cons, List.not_mem_nil, or_false] at hx
      rcases hx with rfl | rfl <;> rfl
  · intro r hr
    simp only [exCat, List.mem_cons, List.not_mem_nil, or_false] at hr
    rcases hr with rfl | rfl <;> norm_num

end LineMatch
end Amazed
